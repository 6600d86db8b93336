import Verif.Base.Path
import Verif.Model.Platform
/-!
# Specification vocabulary for paths
-/
namespace DumpSyms

/-- A name usable as one path component: not empty, no separator, not `.` or `..`. -/
def ProperComp (c : Str) : Prop := c ≠ [] ∧ '/' ∉ c ∧ c ≠ ['.'] ∧ c ≠ ['.', '.']

/-- A directory part: nothing, or something ending in a separator. -/
def DirPart (pre : Str) : Prop := pre = [] ∨ pre.getLast? = some '/'

/-- The names separated by single `/`. -/
def joinSlash : List Str → Str
  | [] => []
  | [c] => c
  | c :: cs => c ++ '/' :: joinSlash cs

/-- The path with the given components, absolute or relative. -/
def renderPath (abs : Bool) (cs : List Str) : Str := if abs then '/' :: joinSlash cs else joinSlash cs

/-- Lexical resolution of `.` and `..`: a name is entered, `..` leaves the last name entered (if any). -/
def resolveStep (stack : List Str) : Comp → List Str
  | .rootDir => []
  | .curDir => stack
  | .parentDir => stack.dropLast
  | .normal c => stack ++ [c]

def resolve (cs : List Comp) : List Str := cs.foldl resolveStep []

/-- `path` lies below `dir`: it is `dir` followed by at least one component, none of which leads upwards. -/
def Below (dir path : Str) : Prop :=
  ∃ rest, Path.components path = Path.components dir ++ rest ∧ rest ≠ [] ∧ Comp.parentDir ∉ rest

/-- Separators of a platform. -/
def IsSep (pl : Platform) (c : Char) : Prop := c = '/' ∨ (pl = .win ∧ c = '\\')

/-- Absolute paths: they start at the root, or for Windows with a separator or a drive (`C:`, `C:\\...`, `C:/...`). -/
def IsAbsolute (pl : Platform) (path : Str) : Prop :=
  match pl with
  | .win => (∃ c rest, path = c :: rest ∧ IsSep .win c) ∨
      ∃ drive rest, path = drive ++ ':' :: rest ∧ (∀ c ∈ drive, ¬ IsSep .win c) ∧ (∀ c, rest.head? = some c → IsSep .win c)
  | _ => ∃ rest, path = '/' :: rest

/-- `p` is `left` without its trailing separators and `right` without its leading ones, with one separator between them, which is
`/` except for a Windows path whose left side does not start with `/`. -/
def Joins (pl : Platform) (left right p : Str) : Prop :=
  ∃ l t h r, left = l ++ t ∧ right = h ++ r ∧ (∀ c ∈ t, IsSep pl c) ∧ (∀ c ∈ h, IsSep pl c) ∧
    (∀ c, l.getLast? = some c → ¬ IsSep pl c) ∧ (∀ c, r.head? = some c → ¬ IsSep pl c) ∧
    p = l ++ (if pl = .win ∧ l.head? ≠ some '/' then '\\' else '/') :: r

/-- The directory of a module in the store, described from the name alone: a compressed extension `pd_`, `ex_`, `dl_`
(in any letter case) after a non-empty stem is replaced by `pdb`, `exe`, `dll`; any other name is used as it is. -/
inductive StoreDirName : Str → Str → Prop
  | expand (stem ext new : Str) : stem ≠ [] → '.' ∉ ext →
      (toLower ext, new) ∈ [(str% "pd_", str% "pdb"), (str% "ex_", str% "exe"), (str% "dl_", str% "dll")] →
      StoreDirName (stem ++ '.' :: ext) (stem ++ '.' :: new)
  | keep (name : Str) : (∀ stem ext, name = stem ++ '.' :: ext → stem ≠ [] → '.' ∉ ext →
      toLower ext ∉ [str% "pd_", str% "ex_", str% "dl_"]) → StoreDirName name name

/-- The stored file's name: a final `.pdb` (any letter case) is dropped, then `.sym` is added. -/
inductive StoreFileName : Str → Str → Prop
  | pdb (stem ext : Str) : '.' ∉ ext → toLower ext = str% "pdb" →
      StoreFileName (stem ++ '.' :: ext) (stem ++ str% ".sym")
  | other (name : Str) : (∀ stem ext, name = stem ++ '.' :: ext → '.' ∉ ext → toLower ext ≠ str% "pdb") →
      StoreFileName name (name ++ str% ".sym")

/-- The place of a module's symbol file in a store: the file `FILE` in the directory `ID` in the directory `NAME` of the store. -/
def InStore (store name id path : Str) : Prop :=
  ∃ dir file, StoreDirName name dir ∧ StoreFileName name file ∧ path = Path.push store (Path.push (Path.push dir id) file)

end DumpSyms
