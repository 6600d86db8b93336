import Verif.Model.Collector
/-!
# Specification vocabulary for symbol maps
-/
namespace DumpSyms

/-- `(b, s)` is the closest symbol that starts before the address `a`. -/
def Closest (m : Symbols) (a b : Nat) (s : Symbol) : Prop :=
  m.get? b = some s ∧ b < a ∧ ∀ c, b < c → c < a → m.get? c = none

/-- The address `a` lies strictly inside the extent of the closest symbol that starts before it, and that symbol ends
below 2^32 (the end of a symbol that reaches 2^32 wraps around in the code: `C15_wrap_witness`). -/
def InsideClosest (m : Symbols) (a : Nat) : Prop := ∃ b s, Closest m a b s ∧ a < b + s.len ∧ b + s.len < M32

/-- Every symbol is stored under its own address, and addresses and lengths are 32-bit values. -/
def Keyed (m : Symbols) : Prop := ∀ a s, m.get? a = some s → s.rva = a ∧ a < M32 ∧ s.len < M32

/-- The name is one the compiler makes up for a constant. -/
def CompilerConstant (n : Str) : Prop :=
  ∃ r, n = str% "??_C" ++ r ∨ n = str% "__real@" ++ r ∨ n = str% "__xmm@" ++ r ∨ n = str% "__ymm@" ++ r

/-- The public symbol is a compiler-made constant. -/
def Collector.Public.IsConstant (p : Collector.Public) : Prop := ∃ n, p.name = some n ∧ CompilerConstant n

/-- A symbol without line and inline records. -/
def Symbol.NoRecords (s : Symbol) : Prop := s.source.lines = [] ∧ s.source.inlines = []

end DumpSyms
