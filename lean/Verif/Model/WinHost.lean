import Verif.Base.WinPath
import Verif.Model.Utils
/-!
# Model of src/utils.rs built for Windows

The functions of `Verif.Model.Utils` whose meaning depends on the paths of the machine the program runs on, with the paths of Windows.
-/
namespace DumpSyms
namespace WinHost
open WinPath

/-- src/utils.rs:36-59 `get_base`. -/
def getBase (fileName : Str) : Str :=
  match extension fileName with
  | some e =>
    let e := toLower e
    if e = str% "pd_" then setExtension fileName (str% "pdb")
    else if e = str% "ex_" then setExtension fileName (str% "exe")
    else if e = str% "dl_" then setExtension fileName (str% "dll")
    else fileName
  | none => fileName

/-- src/utils.rs:62-74 `get_path_for_sym`; the name of the stored file is made without looking at paths (src/utils.rs:67-70). -/
def getPathForSym (fileName id : Str) : Str :=
  push (push (getBase fileName) id) (Utils.symFileName fileName)

/-- src/utils.rs:183-197: one step of the loop of `normalize_path`.  A prefix is only the first component, which the loop does not see. -/
def normalizeStep (ret : Str) : WinPath.Comp → Str
  | .pre _ => ret
  | .rootDir => push ret ['\\']
  | .curDir => ret
  | .parentDir => pop ret
  | .normal c => push ret c

/-- src/utils.rs:172-199 `normalize_path`. -/
def normalizePath (path : Str) : Str :=
  match components path with
  | .pre raw :: rest => rest.foldl normalizeStep raw
  | cs => cs.foldl normalizeStep []

end WinHost
end DumpSyms
