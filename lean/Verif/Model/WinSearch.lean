import Verif.Model.WinHost
import Verif.Model.WinUtils
/-!
# Model of src/windows/utils.rs, and of reading files (src/utils.rs), built for Windows

The functions of `Verif.Model.Files` and `Verif.Model.WinUtils` up to the search of the symbol servers, with the paths of Windows.  The disk
and the parameters are the ones of those models.
-/
namespace DumpSyms
namespace WinHost
open WinPath WinUtils

/-- src/utils.rs:141-154 `get_corrected_path`.  Panics when the path has no extension. -/
def getCorrectedPath (path : Str) : Res Str :=
  match extension path with
  | none => .panic
  | some e =>
    if (str% "pd").isPrefixOf e then .ok (setExtension path (str% "pdb"))
    else if (str% "dl").isPrefixOf e then .ok (setExtension path (str% "dll"))
    else if (str% "ex").isPrefixOf e then .ok (setExtension path (str% "exe"))
    else if (str% "db").isPrefixOf e then .ok (setExtension path (str% "dbg"))
    else .ok path

/-- src/utils.rs:201-203 `get_filename`. -/
def getFilename (path : Str) : Res Str :=
  match fileName path with
  | some s => .ok s
  | none => .panic

/-- src/utils.rs:156-170 `get_cabinet_files` (with the simplification of `Files.findEntry`). -/
def findEntry (wanted : Str) : List (Str × Option Bytes) → Res (Option (Str × Option Bytes))
  | [] => .ok none
  | e :: es =>
    match fileName e.1 with
    | none => .panic
    | some n => if n = wanted then .ok (some e) else findEntry wanted es

/-- src/utils.rs:112-139 `read_cabinet`.  `ok none` is the `None` of the code. -/
def readCabinet (cab : Cab) (buf : Bytes) (path : Str) : Res (Option Bytes) :=
  match cab buf with
  | none => .ok (some buf)
  | some entries =>
    match getCorrectedPath path with
    | .ok p =>
      match fileName p with
      | none => .panic
      | some wanted =>
        match findEntry wanted entries with
        | .ok (some e) => .ok e.2
        | .ok none => .ok none
        | .err m => .err m
        | .panic => .panic
    | .err m => .err m
    | .panic => .panic

/-- src/utils.rs:76-110 `get_mac_bundle`: the file to read instead of a directory. -/
def macBundle (d : Disk) (path : Str) : Res Str :=
  let dwarf := push path (str% "Contents/Resources/DWARF")
  match d dwarf with
  | some (.dir [e]) => .ok (push dwarf e)
  | _ => .panic

/-- src/utils.rs:13-34 `read_file`: everything that goes wrong is a panic. -/
def readFile (cab : Cab) (d : Disk) (path : Str) : Res Bytes :=
  let target : Res Str :=
    match d path with
    | none => .panic
    | some (.dir _) => macBundle d path
    | some (.file _ _) => .ok path
  match target with
  | .ok p =>
    match d p with
    | some (.file b true) =>
      match readCabinet cab b p with
      | .ok (some r) => .ok r
      | _ => .panic
    | _ => .panic
  | _ => .panic

/-- src/windows/utils.rs:95-109: the loop of `find_pe_for_pdb`; `path` is the `PathBuf` being modified. -/
def findLoop (cab : Cab) (parse : ParsePe) (d : Disk) (id : Str) : Str → List Str → Res (Option (Str × Bytes))
  | _, [] => .ok none
  | path, ext :: exts =>
    let path := setExtension path ext
    if d.isFile path then
      match readFile cab d path with
      | .ok buf =>
        match parse buf with
        | some pe =>
          let path := if ext.getLast? = some '_' then setExtension path (fixExtension ext) else path
          match getFilename path with
          | .ok filename =>
            if pe.debugId = id then .ok (some (filename, buf)) else findLoop cab parse d id path exts
          | .err m => .err m
          | .panic => .panic
        | none => findLoop cab parse d id path exts
      | .err m => .err m
      | .panic => .panic
    else findLoop cab parse d id path exts

/-- src/windows/utils.rs:93-111 `find_pe_for_pdb`. -/
def findPeForPdb (cab : Cab) (parse : ParsePe) (d : Disk) (path id : Str) : Res (Option (Str × Bytes)) :=
  findLoop cab parse d id path [str% "dll", str% "dl_", str% "exe", str% "ex_"]

/-- `PathBuf::set_file_name` and `Path::with_file_name`. -/
def setFileName (p name : Str) : Str :=
  push (match fileName p with | some _ => pop p | none => p) name

/-- src/windows/utils.rs:13-33 `try_to_find_pdb`.  `cwd` is the current directory. -/
def tryToFindPdb (cab : Cab) (d : Disk) (cwd path pdbFilename : Str) : Res (Option Bytes) :=
  let pdb := setFileName path pdbFilename
  let pdbCab := setExtension pdb (str% "pd_")
  if d.isFile pdb then (readFile cab d pdb).map some
  else if d.isFile pdbCab then (readFile cab d pdbCab).map some
  else
    let pdb := setFileName cwd pdbFilename
    if d.isFile pdb then (readFile cab d pdb).map some else .ok none

/-- src/windows/utils.rs:36-54 `os_specific_try_to_find_pdb` (on Windows the path is not changed). -/
def osSpecificTryToFindPdb (cab : Cab) (d : Disk) (cwd path pdbFilename : Str) : Res (Option Bytes × Str) :=
  match fileName pdbFilename with
  | some pdbName =>
    if d.isFile pdbFilename then (readFile cab d pdbFilename).map (fun b => (some b, pdbName))
    else (tryToFindPdb cab d cwd path pdbName).map (fun b => (b, pdbName))
  | none => .ok (none, [])

end WinHost
end DumpSyms
