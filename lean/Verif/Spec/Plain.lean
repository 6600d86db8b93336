import Verif.Spec.Records
import Verif.Spec.Rules
/-!
# Files whose texts are on one line
-/
namespace DumpSyms
open Collector

/-- A text on one line. -/
def OneLine (s : Str) : Prop := '\n' ∉ s

/-- A text on one line without blanks in it. -/
def Unbroken (s : Str) : Prop := ' ' ∉ s ∧ '\n' ∉ s

/-- Unwind text: STACK records, one on each line. -/
def StackText (t : Str) : Prop := ∃ ls : List Str, t = ls.flatMap (fun l => str% "STACK " ++ l ++ str% "\n") ∧ ∀ l ∈ ls, OneLine l

/-- The texts of a dumped file that are printed are on one line each: its architecture, ids and names, the paths of the source files (as they
are printed), the names of functions, public symbols and sections, and the unwind information.  `name` is the name of the file, `pe` the PE
that goes with it and `peName` the name of that. -/
structure PlainTexts (env : CEnv) (pl : Platform) (main : ObjInput) (fs : List (Option Func)) (name : Str) (pe : Option ObjInput)
    (peName : Option Str) : Prop where
  arch : Unbroken main.arch
  debugId : Unbroken main.debugId
  codeId : ∀ c, main.codeId = some c ∨ (∃ q, pe = some q ∧ q.codeId = some c) → c ≠ [] ∧ ∀ x ∈ c, isWhitespace x = false
  name : OneLine name
  ownName : ∀ n, main.name = some n → OneLine n
  peName : ∀ p, peName = some p → OneLine p ∧ ∃ x, p.getLast? = some x ∧ isWhitespace x = false
  paths : ∀ f, some f ∈ fs → ∀ c i, f.Refers c i → ∀ p, env.src.Records c i p → OneLine ((env.src.mapping p).getD p)
  functions : ∀ f, some f ∈ fs → ∀ t, Shown env.dm f.name t → OneLine t
  publics : ∀ ps, ps = main.publics ∨ main.Embeds ps → ∀ p ∈ ps, ∀ t k, PublicShown env pl p t k → OneLine t
  sections : ∀ hs, main.kind = .elf hs → ∀ h ∈ hs, ∀ n, h.name = some n → OneLine n
  unwind : ∀ t, main.unwind = some t ∨ (∃ q, pe = some q ∧ q.unwind = some t) → StackText t

end DumpSyms
