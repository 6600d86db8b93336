import Verif.Spec.WinHost
import Verif.Spec.WinFiles
/-!
# Reading files on Windows, and which PDB and which PE belong together there

Of the model only the description of the surroundings and, for paths without a last name, `WinPath.fileName` are used.
-/
namespace DumpSyms

/-- Nothing, or a text that ends in a separator. -/
def EndsSep (s : Str) : Prop := s = [] ∨ ∃ t x, s = t ++ [x] ∧ winSep x = true

/-- `WinAnchored a s`: in the path `a ++ s` (which is not verbatim), `a` is what comes before the names: nothing, a separator, a drive, a drive with a
separator, or a device or share with a separator. -/
inductive WinAnchored : Str → Str → Prop
  | plain (s : Str) (hd : ¬ DriveLike s) (hs : ¬ StartsSep s) : WinAnchored [] s
  | rooted (x : Char) (s : Str) (hx : winSep x = true) (hs : ¬ StartsSep s) : WinAnchored [x] s
  | drive (d : Char) (s : Str) (hd : d.isAlpha = true) (hs : ¬ StartsSep s) : WinAnchored [d, ':'] s
  | driveRooted (d x : Char) (s : Str) (hd : d.isAlpha = true) (hx : winSep x = true) : WinAnchored [d, ':', x] s
  | device (a b c x : Char) (name s : Str) (ha : winSep a = true) (hb : winSep b = true) (hc : winSep c = true) (hx : winSep x = true)
      (hn : NoSep name) : WinAnchored (a :: b :: '.' :: c :: (name ++ [x])) s
  | share (a b c x : Char) (server name s : Str) (ha : winSep a = true) (hb : winSep b = true) (hc : winSep c = true) (hx : winSep x = true)
      (hn : NoSep server) (hm : NoSep name) (h1 : server ≠ []) (h2 : name ≠ []) (h3 : server ≠ ['?']) (h4 : server ≠ ['.']) :
      WinAnchored (a :: b :: (server ++ c :: (name ++ [x]))) s

/-- What can be put before the name of a file. -/
def WinDirPart (pre : Str) : Prop := ∃ a d, pre = a ++ d ∧ WinAnchored a d ∧ EndsSep d

/-- Pieces that name nothing: separators, and `.` with a separator. -/
inductive WinSkip : Str → Prop
  | nil : WinSkip []
  | sep (x : Char) (s : Str) : winSep x = true → WinSkip s → WinSkip (x :: s)
  | dot (x : Char) (s : Str) : winSep x = true → WinSkip s → WinSkip ('.' :: x :: s)

/-- The directory of a path, as what is put before the name of another file there. -/
inductive WinDirOf (path : Str) : Str → Prop
  | top (a k n : Str) : path = a ++ (k ++ n) → WinAnchored a (k ++ n) → WinSkip k → k = [] ∨ (∃ t x, a = t ++ [x] ∧ winSep x = true) →
      WinProper n → WinDirOf path a
  | below (a e k n : Str) (x : Char) : path = a ++ (e ++ x :: (k ++ n)) → WinAnchored a (e ++ x :: (k ++ n)) → e ≠ [] → ¬ EndsSep e →
      (¬ ∃ t y, e = t ++ [y, '.'] ∧ winSep y = true) → (e = ['.'] → ¬ ∃ t y, a = t ++ [y] ∧ winSep y = true) → winSep x = true →
      WinSkip k → WinProper n → WinDirOf path (a ++ (e ++ ['\\']))
  | self : WinPath.fileName path = none → WinPath.verbatim path = false → NoSepAfter path → WinDirPart path → WinDirOf path path
  | inside : WinPath.fileName path = none → WinPath.verbatim path = false → ¬ NoSepAfter path → WinDirPart (path ++ ['\\']) →
      WinDirOf path (path ++ ['\\'])

namespace WinHost

/-- What a file named `name` with the bytes `raw` holds: these bytes, or if it is a cabinet, the bytes of the first entry whose file name
(on Windows: what follows the last separator of either kind) is `name` with the expanded extension. -/
inductive FileHolds (cab : Cab) (name : Str) (raw : Bytes) : Bytes → Prop
  | plain : cab raw = none → FileHolds cab name raw raw
  | packed (stem e x entry : Str) (before after : List (Str × Option Bytes)) (b : Bytes) :
      cab raw = some (before ++ (entry, some b) :: after) → name = stem ++ '.' :: e → stem ≠ [] → '.' ∉ e → Expanded e x →
      WinPath.fileName entry = some (stem ++ '.' :: x) →
      (∀ o ∈ before, ∃ n, WinPath.fileName o.1 = some n ∧ n ≠ stem ++ '.' :: x) → FileHolds cab name raw b

/-- What the file at a path holds. -/
def Holds (cab : Cab) (d : Disk) (path : Str) (b : Bytes) : Prop :=
  ∃ pre n raw, path = pre ++ n ∧ WinDirPart pre ∧ WinProper n ∧ d path = some (.file raw true) ∧ FileHolds cab n raw b

/-- A name inside a directory. -/
def Inside (dir name p : Str) : Prop := NoSepAfter dir ∧ p = dir ++ name ∨ ¬ NoSepAfter dir ∧ p = dir ++ '\\' :: name

/-- What the bundle at a path holds: the only file of its `DWARF` directory. -/
def BundleHolds (cab : Cab) (d : Disk) (path : Str) (b : Bytes) : Prop :=
  ∃ dwarf e p, Inside path (str% "Contents/Resources/DWARF") dwarf ∧ d dwarf = some (.dir [e]) ∧ Inside dwarf e p ∧ Holds cab d p b

/-! ### The PE of a PDB -/

/-- The file at `p` holds the bytes `buf`, which are a PE with the debug id `id`. -/
def IsPe (cab : Cab) (parse : WinUtils.ParsePe) (d : Disk) (id p : Str) (buf : Bytes) : Prop :=
  Holds cab d p buf ∧ ∃ pe, parse buf = some pe ∧ pe.debugId = id

/-- There is no file at `p`, or it holds something else than a PE with the debug id `id`. -/
def NoPe (cab : Cab) (parse : WinUtils.ParsePe) (d : Disk) (id p : Str) : Prop :=
  ¬ IsFile d p ∨ ∃ buf, Holds cab d p buf ∧ ∀ pe, parse buf = some pe → pe.debugId ≠ id

/-- The PE (its name and contents) that goes with a PDB in the directory `pre`, with the base name `stem` and the debug id `id`. -/
inductive PeFor (cab : Cab) (parse : WinUtils.ParsePe) (d : Disk) (id pre stem : Str) : Option (Str × Bytes) → Prop
  | found (before : List (Str × Str)) (ext rep : Str) (after : List (Str × Str)) (buf : Bytes) :
      WinUtils.peExts = before ++ (ext, rep) :: after →
      (∀ e ∈ before, NoPe cab parse d id (pre ++ (stem ++ '.' :: e.1))) → IsPe cab parse d id (pre ++ (stem ++ '.' :: ext)) buf →
      PeFor cab parse d id pre stem (some (stem ++ '.' :: rep, buf))
  | none : (∀ e ∈ WinUtils.peExts, NoPe cab parse d id (pre ++ (stem ++ '.' :: e.1))) → PeFor cab parse d id pre stem none

/-! ### The PDB of a PE -/

/-- The places where the PDB of a PE at `path` is looked for: the recorded path, the file of that name beside the PE, its compressed
form there, and the file of that name beside the current directory. -/
inductive Places (cwd path recorded name : Str) : List Str → Prop
  | mk (dir cdir stem : Str) : WinDirOf path dir → WinDirOf cwd cdir → BaseName name stem →
      Places cwd path recorded name [recorded, dir ++ name, dir ++ (stem ++ str% ".pd_"), cdir ++ name]

end WinHost
end DumpSyms
