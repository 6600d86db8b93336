import Verif.Spec.Paths
import Verif.Model.Files
/-!
# What is read from a path
-/
namespace DumpSyms

/-- A name inside a directory. -/
def Inside (dir name : Str) : Str :=
  if dir = [] ∨ dir.getLast? = some '/' then dir ++ name else dir ++ '/' :: name

/-- The file that is read for a path and its bytes: the file itself, or the only file of a bundle's `DWARF` directory. -/
inductive ReadAt (d : Disk) (path : Str) : Str → Bytes → Prop
  | file (raw : Bytes) : d path = some (.file raw true) → ReadAt d path path raw
  | bundle (es : List Str) (e : Str) (raw : Bytes) : d path = some (.dir es) →
      d (Inside path (str% "Contents/Resources/DWARF")) = some (.dir [e]) →
      d (Inside (Inside path (str% "Contents/Resources/DWARF")) e) = some (.file raw true) →
      ReadAt d path (Inside (Inside path (str% "Contents/Resources/DWARF")) e) raw

/-- The extension of a file inside a cabinet, from that of the cabinet: the first two letters tell. -/
inductive Expanded : Str → Str → Prop
  | two (a b : Char) (t new : Str) :
      (a, b, new) ∈ [('p', 'd', str% "pdb"), ('d', 'l', str% "dll"), ('e', 'x', str% "exe"), ('d', 'b', str% "dbg")] →
      Expanded (a :: b :: t) new
  | same (e : Str) : (∀ a b t, e = a :: b :: t → (a, b) ∉ [('p', 'd'), ('d', 'l'), ('e', 'x'), ('d', 'b')]) → Expanded e e

/-- What a file named `name` with the bytes `raw` holds: these bytes, or if it is a cabinet, the bytes of the first entry whose file name
is `name` with the expanded extension. -/
inductive FileHolds (cab : Cab) (name : Str) (raw : Bytes) : Bytes → Prop
  | plain : cab raw = none → FileHolds cab name raw raw
  | packed (stem e x entry : Str) (before after : List (Str × Option Bytes)) (b : Bytes) :
      cab raw = some (before ++ (entry, some b) :: after) → name = stem ++ '.' :: e → stem ≠ [] → '.' ∉ e → Expanded e x →
      Path.fileName entry = some (stem ++ '.' :: x) →
      (∀ o ∈ before, ∃ n, Path.fileName o.1 = some n ∧ n ≠ stem ++ '.' :: x) → FileHolds cab name raw b

/-- What is found at a path. -/
def PathHolds (cab : Cab) (d : Disk) (path : Str) (b : Bytes) : Prop :=
  ∃ p q n raw, ReadAt d path p raw ∧ p = q ++ n ∧ DirPart q ∧ ProperComp n ∧ FileHolds cab n raw b

/-- What is true of every disk: the path of a file ends with its name, and names of directory entries are names. -/
structure Named (d : Disk) : Prop where
  files : ∀ p raw r, d p = some (.file raw r) → ∃ pre name, p = pre ++ name ∧ DirPart pre ∧ ProperComp name
  dirs : ∀ q es, d q = some (.dir es) → ∀ e ∈ es, ProperComp e

end DumpSyms
