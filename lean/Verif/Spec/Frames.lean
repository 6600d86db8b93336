import Verif.Spec.Reader
import Verif.Spec.Lines
import Verif.Spec.Names
import Verif.Spec.Source
import Verif.Model.Collector
/-!
# Symbolication: what a user of a symbol file does with it, and what the debug information says
-/
namespace DumpSyms

/-- A function at a place in the source. -/
structure Frame where
  function : Str
  path : Option Str
  line : Nat
  deriving DecidableEq, Repr

namespace Reader

/-- The FUNC record a user finds for an address: the last one that starts at or before it, if it reaches that far. -/
def SymFile.funcAt (f : SymFile) (a : Nat) : Option RSym :=
  match (f.symbols.filter fun r => !r.isPublic && decide (r.rva ≤ a)).getLast? with
  | some r => if a < r.rva + r.len then some r else none
  | none => none

/-- The path of a FILE record. -/
def SymFile.path (f : SymFile) (n : Nat) : Option Str := (f.files.find? fun e => decide (e.1 = n)).map (·.2)

/-- The name of an INLINE_ORIGIN record. -/
def SymFile.origin (f : SymFile) (n : Nat) : Option Str := (f.origins.find? fun e => decide (e.1 = n)).map (·.2)

/-- The INLINE record of a function for an address at a nesting depth. -/
def RSym.inlineAt (r : RSym) (a depth : Nat) : Option InlineSite :=
  (r.inlines.find? fun e => decide (e.1.depth = depth) && e.2.any fun x => decide (x.rva ≤ a ∧ a < x.rva + x.len)).map (·.1)

/-- At most one INLINE record of the symbol stands for the address at each nesting depth. -/
def RSym.ClearAt (r : RSym) (a : Nat) : Prop :=
  r.inlines.Pairwise fun e e' => ¬ (e.1.depth = e'.1.depth ∧ (∃ x ∈ e.2, x.rva ≤ a ∧ a < x.rva + x.len) ∧
    ∃ x ∈ e'.2, x.rva ≤ a ∧ a < x.rva + x.len)

/-- The frames of an address from a nesting depth on: while there is an INLINE record, the function is at its call site and
the next one is its origin; the last one is at the line record. -/
def SymFile.framesFrom (f : SymFile) (r : RSym) (a : Nat) : (fuel : Nat) → (depth : Nat) → (function : Str) → List Frame
  | 0, _, _ => []
  | fuel + 1, depth, function =>
    match r.inlineAt a depth with
    | some site => ⟨function, f.path site.callFile, site.callLine⟩ ::
        f.framesFrom r a fuel (depth + 1) ((f.origin site.originId).getD [])
    | none =>
      match lookupLine r.lines a with
      | some (line, file) => [⟨function, f.path file, line⟩]
      | none => [⟨function, none, 0⟩]

/-- The frames of an address, outermost first. -/
def SymFile.framesAt (f : SymFile) (a : Nat) : Option (List Frame) :=
  (f.funcAt a).map fun r => f.framesFrom r a (r.inlines.length + 1) 0 r.name

end Reader

/-- The frames according to the debug information, outermost first: the calls that were inlined, and the line of the
innermost function.  `path` is the path printed for a reference, `nameOf` the text printed for the name of an inlined
function. -/
def debugFrames (path : ByteSlice → FileInfo → Str) (nameOf : Name → Str) (function : Str) :
    List CallStep → LineInfo → ByteSlice → List Frame
  | [], l, c => [⟨function, some (path c l.file), u32 l.line⟩]
  | s :: cs, l, c => ⟨function, some (path s.callerDir s.callLine.file), u32 s.callLine.line⟩ ::
      debugFrames path nameOf (nameOf s.callee) cs l c

/-- The texts printed: for a reference to a file, its recorded path after the path mapping; for the name of an inlined function, the text
kept for it, or a fixed text if nothing of it can be seen. -/
structure Printed (env : CEnv) (path : ByteSlice → FileInfo → Str) (nameOf : Name → Str) : Prop where
  path : ∀ c f p, env.src.Records c f p →
    path c f = (env.src.mapping p).getD p
  nameOf : ∀ n t, OriginName env.dm n t → (Blank t → nameOf n = str% "<name omitted>") ∧ (¬ Blank t → nameOf n = t)

end DumpSyms
