import Verif.Model.Mapping
/-!
# What a mapping destination means
-/
namespace DumpSyms
namespace Mapping

/-- No closing brace comes after an opening one. -/
def NoPair (t : Str) : Prop := ∀ a b, t = a ++ b → '{' ∈ a → '}' ∉ b

/-- A way to cut a destination into `literal{action}` pieces and a last literal. -/
structure Cut (dest : Str) (pairs : List (Str × Str)) (tail : Str) : Prop where
  concat : dest = (pairs.flatMap fun p => p.1 ++ '{' :: p.2 ++ ['}']) ++ tail
  literals : ∀ p ∈ pairs, NoPair p.1
  actions : ∀ p ∈ pairs, '{' ∉ p.2 ∧ '}' ∉ p.2
  last : NoPair tail

/-- Decimal numerals accepted by Rust for a 64-bit number: an optional plus sign and at least one digit. -/
def Numeral (s : Str) (n : Nat) : Prop :=
  ∃ ds, (s = ds ∨ s = '+' :: ds) ∧ ds ≠ [] ∧ (∀ c ∈ ds, '0' ≤ c ∧ c ≤ '9') ∧
    ds.foldl (fun a c => a * 10 + (c.toNat - '0'.toNat)) 0 = n ∧ n < 2 ^ 64

/-- The meaning of the text between two braces. -/
inductive Means (vars : List (Str × Str)) : Str → ActionKind → Prop where
  | upper : Means vars (str% "DIGEST") (.digest true)
  | lower : Means vars (str% "digest") (.digest false)
  | var {a v : Str} (h1 : a ≠ str% "DIGEST") (h2 : a ≠ str% "digest") (h : vars.lookup a = some v) :
      Means vars a (.mappingVar v)
  | group {a : Str} {n : Nat} (h1 : a ≠ str% "DIGEST") (h2 : a ≠ str% "digest") (h3 : vars.lookup a = none)
      (h : Numeral a n) : Means vars a (.group n)

/-- The sixteen digits. -/
def hexDigits (uppercase : Bool) : Str := if uppercase then str% "0123456789ABCDEF" else str% "0123456789abcdef"

/-- Two digits for each byte, in order. -/
def HexText (uppercase : Bool) : List Nat → Str → Prop
  | [], s => s = []
  | b :: bs, s => ∃ c d t, s = c :: d :: t ∧ (hexDigits uppercase)[b / 16]? = some c ∧
      (hexDigits uppercase)[b % 16]? = some d ∧ HexText uppercase bs t

/-- The text an action is replaced by. -/
inductive Value (env : MapEnv) (caps : Captures) (file : Str) : ActionKind → Str → Prop where
  | group {n : Nat} {g : Str} (h : caps n = some g) (hw : env.windows = false) : Value env caps file (.group n) g
  | groupWindows {n : Nat} {g : Str} (h : caps n = some g) (hw : env.windows = true) :
      Value env caps file (.group n) (g.map fun c => if c = '\\' then '/' else c)
  | var {v : Str} : Value env caps file (.mappingVar v) v
  | digest {u : Bool} {data : List Nat} {t : Str} (hr : env.read file = .ok data) (ht : HexText u (env.sha512 data) t) :
      Value env caps file (.digest u) t

/-- `x` is the value given last to the variable `k` in a list of `variable=value` texts. -/
def LastVar (vs : List Str) (k x : Str) : Prop :=
  '=' ∉ k ∧ ∃ pre post, vs = pre ++ (k ++ '=' :: x) :: post ∧ ∀ w ∈ post, ¬ (k ++ ['=']) <+: w

/-- The generators of some entries, in order. -/
def Gens (env : MapEnv) (vars : List (Str × Str)) (es : List Entry) (gs : List Generator) : Prop :=
  es.map (fun e => Generator.new env e.source e.destination vars e.files) = gs.map .ok

end Mapping
end DumpSyms
