import Verif.Model.Files
import Verif.Model.Cache
/-!
# Model of src/windows/utils.rs

Parsing a PE file (crate `symbolic`) is a parameter giving its debug id and the PDB file name recorded in it.
-/
namespace DumpSyms
namespace WinUtils

/-- What the code uses of a parsed PE file: `pe.debug_id()` and `pe.debug_file_name()`. -/
structure Pe where
  debugId : Str
  debugFileName : Option Str
  deriving DecidableEq, Repr

/-- `PeObject::parse`. -/
abbrev ParsePe := Bytes → Option Pe

/-- src/windows/utils.rs:83-89 `fix_extension`. -/
def fixExtension (ext : Str) : Str :=
  if ext = str% "dl_" then str% "dll"
  else if ext = str% "ex_" then str% "exe"
  else ext

/-- src/windows/utils.rs:95-109: the loop of `find_pe_for_pdb`; `path` is the `PathBuf` being modified. -/
def findLoop (cab : Cab) (parse : ParsePe) (d : Disk) (id : Str) : Str → List Str → Res (Option (Str × Bytes))
  | _, [] => .ok none
  | path, ext :: exts =>
    let path := Path.setExtension path ext
    if d.isFile path then
      match Files.readFile cab d path with
      | .ok buf =>
        match parse buf with
        | some pe =>
          let path := if ext.getLast? = some '_' then Path.setExtension path (fixExtension ext) else path
          match Utils.getFilename path with
          | .ok filename =>
            if pe.debugId = id then .ok (some (filename, buf)) else findLoop cab parse d id path exts
          | .err m => .err m
          | .panic => .panic
        | none => findLoop cab parse d id path exts
      | .err m => .err m
      | .panic => .panic
    else findLoop cab parse d id path exts

/-- src/windows/utils.rs:93-111 `find_pe_for_pdb`. -/
def findPeForPdb (cab : Cab) (parse : ParsePe) (d : Disk) (path id : Str) : Res (Option (Str × Bytes)) :=
  findLoop cab parse d id path [str% "dll", str% "dl_", str% "exe", str% "ex_"]

/-- `PathBuf::set_file_name` and `Path::with_file_name`. -/
def setFileName (p name : Str) : Str :=
  Path.push (match Path.fileName p with | some _ => Path.pop p | none => p) name

/-- src/windows/utils.rs:13-33 `try_to_find_pdb`.  `cwd` is the current directory. -/
def tryToFindPdb (cab : Cab) (d : Disk) (cwd path pdbFilename : Str) : Res (Option Bytes) :=
  let pdb := setFileName path pdbFilename
  let pdbCab := Path.setExtension pdb (str% "pd_")
  if d.isFile pdb then (Files.readFile cab d pdb).map some
  else if d.isFile pdbCab then (Files.readFile cab d pdbCab).map some
  else
    let pdb := setFileName cwd pdbFilename
    if d.isFile pdb then (Files.readFile cab d pdb).map some else .ok none

/-- src/windows/utils.rs:36-54 `os_specific_try_to_find_pdb` (Unix: backslashes become slashes). -/
def osSpecificTryToFindPdb (cab : Cab) (d : Disk) (cwd path pdbFilename : Str) : Res (Option Bytes × Str) :=
  let pdbFilename := pdbFilename.map (fun c => if c = '\\' then '/' else c)
  match Path.fileName pdbFilename with
  | some pdbName =>
    if d.isFile pdbFilename then (Files.readFile cab d pdbFilename).map (fun b => (some b, pdbName))
    else (tryToFindPdb cab d cwd path pdbName).map (fun b => (b, pdbName))
  | none => .ok (none, [])

/-- src/windows/utils.rs:57-81 `get_pe_pdb_buf`: the PE, the contents of its PDB and the name of the PDB. -/
def getPePdbBuf (net : Cache.Net) (parse : ParsePe) (cwd path : Str) (buf : Bytes)
    (servers : Option (List Cache.Server)) (w : Cache.World) : Res (Option (Pe × Bytes × Str)) × Cache.World :=
  match parse buf with
  | none => (.panic, w)
  | some pe =>
    match pe.debugFileName with
    | none => (.ok none, w)
    | some pdbFilename =>
      match osSpecificTryToFindPdb net.cab w.disk cwd path pdbFilename with
      | .ok (pdb, pdbName) =>
        if pdbName = [] then (.ok none, w)
        else
          match pdb with
          | some pdbBuf => (.ok (some (pe, pdbBuf, pdbName)), w)
          | none =>
            let r := Cache.searchFile net pdbName pe.debugId servers w
            (r.1.map (fun b => b.map (fun pdbBuf => (pe, pdbBuf, pdbName))), r.2)
      | .err m => (.err m, w)
      | .panic => (.panic, w)

end WinUtils
end DumpSyms
