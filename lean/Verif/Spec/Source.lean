import Verif.Model.Source
import Verif.Spec.Paths
import Verif.Spec.WinHost
/-!
# Specification vocabulary for references to source files

What memory shows behind the slices handed to the program.
-/
namespace DumpSyms

/-- A memory: the text denoted by each (pointer, length) pair. -/
structure Mem where
  bytes : SliceRef → List UInt8
  str : SliceRef → Str

/-- The slices of a reference show the text that `mem` has at their place. -/
def Faithful (mem : Mem) (comp : ByteSlice) (file : FileInfo) : Prop :=
  comp.bytes = mem.bytes comp.ref ∧ file.dir = mem.str file.dirRef ∧ file.name = mem.str file.nameRef

/-- The text of some bytes: what they encode in UTF-8, or the Latin-1 characters if they are not valid UTF-8. -/
def TextOf (bytes : List UInt8) (s : Str) : Prop :=
  (String.ofList s).toUTF8 = bytes.toByteArray ∨
  ((∀ t : String, t.toUTF8 ≠ bytes.toByteArray) ∧ s = bytes.map fun b => Char.ofNat b.toNat)

/-- The directory needs no compilation directory before it: it is absolute, or it is empty and the file is one of Windows (for which the
code takes the empty path for an absolute one). -/
def StandsAlone (pl : Platform) (dir : Str) : Prop := IsAbsolute pl dir ∨ (pl = .win ∧ dir = [])

/-- The path of a source file: the name in the directory, which is in the compilation directory if it is relative (and there is a
compilation directory). -/
def SourcePath (pl : Platform) (comp : List UInt8) (dir name path : Str) : Prop :=
  ((StandsAlone pl dir ∨ comp = []) → Joins pl dir name path) ∧
  (¬ StandsAlone pl dir → comp ≠ [] → ∃ c d, TextOf comp c ∧ Joins pl c dir d ∧ Joins pl d name path)

/-- The path with `.` and `..` resolved lexically. For Windows it is the one that `normalize_path` gives there, which C105 is about. -/
def Resolved (pl : Platform) (path p : Str) : Prop :=
  match pl with
  | .win => p = WinHost.normalizePath path
  | _ => p = renderPath (Path.isAbs path) (resolve (Path.components path))

/-- The path recorded for a reference: on the machine the file was made for, the real path, or where there is none the path with `.` and
`..` resolved lexically; elsewhere the path as it is. -/
def RecordedPath (pl : Platform) (onHost : Prop) (real : Str → Option Str) (comp : ByteSlice) (file : FileInfo) (p : Str) : Prop :=
  ∃ path, SourcePath pl comp.bytes file.dir file.name path ∧
    (onHost → (∀ r, real path = some r → p = r) ∧
      (real path = none → Resolved pl path p)) ∧
    (¬ onHost → p = path)

/-- The path recorded for a reference by a dump. -/
def SrcEnv.Records (env : SrcEnv) (comp : ByteSlice) (file : FileInfo) (p : Str) : Prop :=
  RecordedPath env.platform (env.canonicalize = true) env.canon comp file p

/-- dump_syms runs on the platform. -/
def OnHost : TargetOs → Platform → Prop
  | .linux, .linux | .macos, .mac | .windows, .win => True
  | _, _ => False

end DumpSyms
