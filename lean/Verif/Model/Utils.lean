import Verif.Base.Path
/-!
# Model of src/utils.rs

Reading files and cabinets (`read_file`, `get_mac_bundle`, `read_cabinet`, `get_cabinet_files`) is in `Verif.Model.Files`.
-/
namespace DumpSyms
namespace Utils

/-- src/utils.rs:36-59 `get_base`.  Simplification: the file name is valid Unicode, so `e.to_str().unwrap()` succeeds. -/
def getBase (fileName : Str) : Str :=
  match Path.extension fileName with
  | some e =>
    let e := toLower e
    if e = str% "pd_" then Path.setExtension fileName (str% "pdb")
    else if e = str% "ex_" then Path.setExtension fileName (str% "exe")
    else if e = str% "dl_" then Path.setExtension fileName (str% "dll")
    else fileName
  | none => fileName

/-- src/utils.rs:67-70: the name of the stored file. -/
def symFileName (fileName : Str) : Str :=
  match Path.rsplitDot fileName with
  | some (base, ext) => if toLower ext = str% "pdb" then base ++ str% ".sym" else fileName ++ str% ".sym"
  | none => fileName ++ str% ".sym"

/-- src/utils.rs:62-74 `get_path_for_sym`. -/
def getPathForSym (fileName id : Str) : Str :=
  Path.push (Path.push (getBase fileName) id) (symFileName fileName)

/-- src/utils.rs:141-154 `get_corrected_path`.  Panics when the path has no extension. -/
def getCorrectedPath (path : Str) : Res Str :=
  match Path.extension path with
  | none => .panic
  | some e =>
    if (str% "pd").isPrefixOf e then .ok (Path.setExtension path (str% "pdb"))
    else if (str% "dl").isPrefixOf e then .ok (Path.setExtension path (str% "dll"))
    else if (str% "ex").isPrefixOf e then .ok (Path.setExtension path (str% "exe"))
    else if (str% "db").isPrefixOf e then .ok (Path.setExtension path (str% "dbg"))
    else .ok path

/-- src/utils.rs:183-197: one step of the loop of `normalize_path`. -/
def normalizeStep (ret : Str) : Comp → Str
  | .rootDir => Path.push ret ['/']
  | .curDir => ret
  | .parentDir => Path.pop ret
  | .normal c => Path.push ret c

/-- src/utils.rs:172-199 `normalize_path` (Unix: there is no prefix component). -/
def normalizePath (path : Str) : Str := (Path.components path).foldl normalizeStep []

/-- src/utils.rs:201-203 `get_filename`. -/
def getFilename (path : Str) : Res Str :=
  match Path.fileName path with
  | some s => .ok s
  | none => .panic

end Utils
end DumpSyms
