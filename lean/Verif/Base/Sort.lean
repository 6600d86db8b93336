/-!
# Stable sorting

`isort` is the model of Rust's `slice::sort_by_key` (a stable sort).  The order is given as a Boolean `le`.
Stability is stated as: for each key class the elements keep their relative order (`filter_isort`).
-/
namespace DumpSyms

variable {α : Type}

/-- Insert `x` in front of the first element it is `le` to. -/
def insertLe (le : α → α → Bool) (x : α) : List α → List α
  | [] => [x]
  | y :: ys => if le x y then x :: y :: ys else y :: insertLe le x ys

/-- Stable insertion sort. -/
def isort (le : α → α → Bool) : List α → List α
  | [] => []
  | x :: xs => insertLe le x (isort le xs)

theorem insertLe_perm (le : α → α → Bool) (x : α) (l : List α) : (insertLe le x l).Perm (x :: l) := by
  induction l with
  | nil => exact .refl _
  | cons y ys ih =>
    unfold insertLe
    split
    · exact .refl _
    · exact (List.Perm.cons y ih).trans (.swap _ _ _)

theorem isort_perm (le : α → α → Bool) (l : List α) : (isort le l).Perm l := by
  induction l with
  | nil => exact .refl _
  | cons x xs ih => exact (insertLe_perm le x _).trans (.cons x ih)

@[simp] theorem mem_isort {le : α → α → Bool} {l : List α} {a : α} : a ∈ isort le l ↔ a ∈ l :=
  (isort_perm le l).mem_iff

@[simp] theorem length_isort {le : α → α → Bool} {l : List α} : (isort le l).length = l.length :=
  (isort_perm le l).length_eq

@[simp] theorem isort_nil {le : α → α → Bool} : isort le [] = [] := rfl

@[simp] theorem isort_eq_nil {le : α → α → Bool} {l : List α} : isort le l = [] ↔ l = [] := by
  constructor
  · intro h; have := (isort_perm le l).length_eq; rw [h] at this
    exact List.length_eq_zero_iff.mp this.symm
  · rintro rfl; rfl

theorem insertLe_sorted {le : α → α → Bool}
    (htot : ∀ a b, le a b = true ∨ le b a = true)
    (htr : ∀ a b c, le a b = true → le b c = true → le a c = true)
    (x : α) (l : List α) (h : l.Pairwise (fun a b => le a b = true)) :
    (insertLe le x l).Pairwise (fun a b => le a b = true) := by
  induction l with
  | nil => simp [insertLe]
  | cons y ys ih =>
    unfold insertLe
    rw [List.pairwise_cons] at h
    split
    · rename_i hxy
      rw [List.pairwise_cons]
      refine ⟨?_, List.pairwise_cons.mpr h⟩
      intro z hz
      rcases List.mem_cons.mp hz with rfl | hz
      · exact hxy
      · exact htr _ _ _ hxy (h.1 z hz)
    · rename_i hxy
      rw [List.pairwise_cons]
      refine ⟨?_, ih h.2⟩
      intro z hz
      have := (insertLe_perm le x ys).mem_iff.mp hz
      rcases List.mem_cons.mp this with rfl | hz
      · rcases htot z y with h' | h'
        · exact absurd h' hxy
        · exact h'
      · exact h.1 z hz

theorem isort_sorted {le : α → α → Bool}
    (htot : ∀ a b, le a b = true ∨ le b a = true)
    (htr : ∀ a b c, le a b = true → le b c = true → le a c = true)
    (l : List α) : (isort le l).Pairwise (fun a b => le a b = true) := by
  induction l with
  | nil => exact .nil
  | cons x xs ih => exact insertLe_sorted htot htr x _ ih

theorem isort_of_sorted {le : α → α → Bool} {l : List α}
    (h : l.Pairwise (fun a b => le a b = true)) : isort le l = l := by
  induction l with
  | nil => rfl
  | cons x xs ih =>
    rw [List.pairwise_cons] at h
    simp only [isort, ih h.2]
    cases xs with
    | nil => rfl
    | cons y ys => simp [insertLe, h.1 y (by simp)]

/-- Stability: elements of one equivalence class of the preorder keep their order. -/
theorem filter_isort {le : α → α → Bool} (p : α → Bool)
    (hp : ∀ a b, p a = true → p b = true → le a b = true) (l : List α) :
    (isort le l).filter p = l.filter p := by
  have key : ∀ (x : α) (l : List α), (insertLe le x l).filter p = (x :: l).filter p := by
    intro x l
    induction l with
    | nil => rfl
    | cons y ys ih =>
      unfold insertLe
      split
      · rfl
      · rename_i hxy
        rw [List.filter_cons, ih]
        by_cases hx : p x = true
        · have hy : p y = false := by
            cases hpy : p y with
            | false => rfl
            | true => exact absurd (hp x y hx hpy) hxy
          simp [hx, hy]
        · simp only [Bool.not_eq_true] at hx
          simp [List.filter_cons, hx]
  induction l with
  | nil => rfl
  | cons x xs ih => rw [isort, key, List.filter_cons, List.filter_cons, ih]

end DumpSyms
