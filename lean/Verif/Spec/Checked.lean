import Verif.Model.Checked
import Verif.Spec.Object
/-!
# When no addition of the collection can overflow
-/
namespace DumpSyms

/-- Every line entry of the function, and of everything inlined into it, ends below 2^32. -/
inductive Func.LinesBelow : Func → Prop where
  | mk (a s : Nat) (n : Name) (c : ByteSlice) (lines : List LineInfo) (inlinees : List Func)
      (h : ∀ l ∈ lines, l.address + l.size.getD 1 < M32) (hi : ∀ g ∈ inlinees, g.LinesBelow) : (Func.mk a s n c lines inlinees).LinesBelow

/-- Everything in the object file ends below 2^32, counting what is empty as one byte. -/
structure ObjInput.Fits (main : ObjInput) (fs : List (Option Func)) : Prop where
  funcs : ∀ f, some f ∈ fs → f.address + max f.size 1 < M32 ∧ f.LinesBelow
  publics : ∀ ps, ps = main.publics ∨ main.Embeds ps → ∀ p ∈ ps, p.address + max p.size 1 < M32
  exceptions : ∀ es, main.exceptions = some es → ∀ e ∈ es, e.begin + 1 < M32 ∧ e.stop < M32

/-- Every symbol ends below 2^32. -/
def Symbols.Below (m : Symbols) : Prop := ∀ e ∈ m, e.2.rva + e.2.len < M32

namespace MTree

/-- Do all the merges in a build with overflow checks. -/
def evalChecked : MTree → Res ObjectInfo
  | leaf o => .ok o
  | node order l r => do
    let a ← l.evalChecked
    let b ← r.evalChecked
    Checked.merge order a b

end MTree
end DumpSyms
