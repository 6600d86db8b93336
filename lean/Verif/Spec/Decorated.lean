import Verif.Model.Common
/-!
# Specification vocabulary for decorated C names
-/
namespace DumpSyms

/-- A decimal number. -/
inductive Decimal : Str → Nat → Prop
  | one (d : Nat) : d < 10 → Decimal [Char.ofNat (48 + d)] d
  | more (s : Str) (v d : Nat) : Decimal s v → d < 10 → Decimal (s ++ [Char.ofNat (48 + d)]) (10 * v + d)

/-- The size of the parameters in a decorated name: a decimal number below 2^32, which may have a `+` in front. -/
def SizeText (t : Str) (v : Nat) : Prop := v < 4294967296 ∧ (Decimal t v ∨ ∃ ds, t = '+' :: ds ∧ Decimal ds v)

/-- The name has the form `name@@size`. -/
def Vectorcall (s : Str) : Prop := ∃ n t v, SizeText t v ∧ s = n ++ str% "@@" ++ t

/-- The text ends in `@size`. -/
def Sized (s : Str) : Prop := ∃ n t v, SizeText t v ∧ s = n ++ str% "@" ++ t

/-- `Undecorated s n size`: the symbol `s` is named `n` in the source, and the size of its parameters is `size` if that is known.
A name with a colon or an opening parenthesis is not decorated.  Otherwise the forms, in this order, are `name@@size` (vectorcall),
`_name@size` (stdcall) and `@name@size` (fastcall), `_name` (cdecl), and names without decoration, which start with an ASCII character. -/
inductive Undecorated : Str → Str → Option Nat → Prop
  | cxx (s : Str) : (':' ∈ s ∨ '(' ∈ s) → Undecorated s s none
  | vectorcall (n t : Str) (v : Nat) : SizeText t v → (':' ∉ n ∧ '(' ∉ n) → Undecorated (n ++ str% "@@" ++ t) n (some v)
  | stdcall (n t : Str) (v : Nat) : SizeText t v → (':' ∉ n ∧ '(' ∉ n) → ¬ Vectorcall (str% "_" ++ n ++ str% "@" ++ t) →
      Undecorated (str% "_" ++ n ++ str% "@" ++ t) n (some v)
  | fastcall (n t : Str) (v : Nat) : SizeText t v → (':' ∉ n ∧ '(' ∉ n) → ¬ Vectorcall (str% "@" ++ n ++ str% "@" ++ t) →
      Undecorated (str% "@" ++ n ++ str% "@" ++ t) n (some v)
  | cdecl (n : Str) : (':' ∉ n ∧ '(' ∉ n) → ¬ Sized n → Undecorated (str% "_" ++ n) n none
  | plain (s : Str) : (':' ∉ s ∧ '(' ∉ s) → ¬ Vectorcall s → (∀ c r, s = c :: r → c.toNat < 128 ∧ c ≠ '_') →
      (∀ r, s = '@' :: r → ¬ Sized r) → Undecorated s s none

end DumpSyms
