/-!
# Appending an element unless present
-/
namespace DumpSyms

variable {α : Type} [BEq α] [LawfulBEq α]

/-- `l` with `a` appended unless it is already there. -/
def addNew (l : List α) (a : α) : List α := if a ∈ l then l else l ++ [a]

theorem mem_addNew_self (l : List α) (a : α) : a ∈ addNew l a := by
  unfold addNew; split <;> simp_all

theorem mem_addNew {l : List α} {a b : α} : b ∈ addNew l a ↔ b ∈ l ∨ b = a := by
  unfold addNew; split
  · constructor
    · exact .inl
    · rintro (h | rfl) <;> assumption
  · simp

theorem addNew_prefix (l : List α) (a : α) : l <+: addNew l a := by
  unfold addNew; split
  · exact List.prefix_refl _
  · exact List.prefix_append ..

theorem addNew_nodup {l : List α} (h : l.Nodup) (a : α) : (addNew l a).Nodup := by
  unfold addNew; split
  · exact h
  · rename_i hn
    rw [List.nodup_append]
    refine ⟨h, by simp, ?_⟩
    intro x hx b hb
    simp at hb; subst hb
    rintro rfl; exact hn hx

theorem idxOf_of_prefix {l m : List α} (h : l <+: m) {a : α} (ha : a ∈ l) : m.idxOf a = l.idxOf a := by
  obtain ⟨t, rfl⟩ := h
  rw [List.idxOf_append, if_pos ha]

theorem idxOf_addNew_new {l : List α} {a : α} (ha : a ∉ l) : (addNew l a).idxOf a = l.length := by
  unfold addNew
  rw [if_neg ha, List.idxOf_append, if_neg ha]; simp

theorem getElem?_idxOf {l : List α} {a : α} (h : a ∈ l) : l[l.idxOf a]? = some a := by
  rw [List.getElem?_eq_getElem (List.idxOf_lt_length_of_mem h)]
  simp [List.getElem_idxOf]

theorem idxOf_inj {l : List α} {a b : α} (ha : a ∈ l) (hb : b ∈ l) (h : l.idxOf a = l.idxOf b) : a = b := by
  have := getElem?_idxOf ha
  rw [h, getElem?_idxOf hb] at this
  exact (Option.some.inj this).symm

theorem idxOf_range {n i : Nat} (h : i < n) : (List.range n).idxOf i = i := by
  have := List.Nodup.idxOf_getElem (xs := List.range n) List.nodup_range i (by simpa using h)
  simpa using this

omit [BEq α] [LawfulBEq α] in
theorem length_lt_of_nodup {l u : List α} (h : l.Nodup) (hs : ∀ x ∈ l, x ∈ u) {a : α} (ha : a ∉ l) (hu : a ∈ u) :
    l.length < u.length := by
  have h1 : (a :: l).Nodup := by simp [ha, h]
  have h2 := List.Nodup.length_le_of_subset h1 (l₂ := u) (by
    intro x hx
    rcases List.mem_cons.mp hx with rfl | hx
    · exact hu
    · exact hs x hx)
  simpa [Nat.lt_iff_add_one_le] using h2

end DumpSyms
