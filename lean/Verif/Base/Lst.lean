/-!
# Small facts about lists
-/
namespace DumpSyms

/-- Every two neighbours are related. -/
def Adj {α : Type} (R : α → α → Prop) : List α → Prop
  | [] => True
  | [_] => True
  | a :: b :: l => R a b ∧ Adj R (b :: l)

theorem Adj.getElem {α : Type} {R : α → α → Prop} {l : List α} (h : Adj R l) (i : Nat) (hi : i + 1 < l.length) :
    R l[i] l[i + 1] := by
  induction l generalizing i with
  | nil => simp at hi
  | cons a l ih =>
    cases l with
    | nil => simp at hi
    | cons b l =>
      cases i with
      | zero => exact h.1
      | succ i => exact ih h.2 i (by simpa using hi)

theorem Adj.imp {α : Type} {R S : α → α → Prop} (h : ∀ a b, R a b → S a b) {l : List α} (hl : Adj R l) : Adj S l := by
  induction l with
  | nil => trivial
  | cons a l ih =>
    cases l with
    | nil => trivial
    | cons b l => exact ⟨h a b hl.1, ih hl.2⟩

theorem adj_cons_of_head {α : Type} {R : α → α → Prop} {a : α} {l : List α}
    (h1 : ∀ b, l.head? = some b → R a b) (h2 : Adj R l) : Adj R (a :: l) := by
  cases l with
  | nil => trivial
  | cons b l => exact ⟨h1 b rfl, h2⟩

/-- Induction on a list from the right. -/
theorem list_snoc_induction {α : Type} {P : List α → Prop} (h0 : P [])
    (h1 : ∀ l a, P l → P (l ++ [a])) (l : List α) : P l := by
  have : ∀ r : List α, P r.reverse := by
    intro r
    induction r with
    | nil => exact h0
    | cons a r ih => rw [List.reverse_cons]; exact h1 _ _ ih
  simpa using this l.reverse

end DumpSyms
