/-!
# Ordered maps

`SMap κ β` is the model of Rust's `BTreeMap<κ, β>`: an association list kept in strictly increasing key order.
-/
namespace DumpSyms

/-- A strict total order, as a Boolean test. -/
class StrictOrd (κ : Type) where
  lt : κ → κ → Bool
  irrefl : ∀ a, lt a a = false
  trans : ∀ a b c, lt a b = true → lt b c = true → lt a c = true
  tri : ∀ a b, lt a b = false → lt b a = false → a = b

instance : StrictOrd Nat where
  lt a b := decide (a < b)
  irrefl a := by simp
  trans a b c := by simp; omega
  tri a b := by simp; omega

@[simp] theorem natLt_iff {a b : Nat} : StrictOrd.lt a b = true ↔ a < b := by
  simp [StrictOrd.lt]

abbrev SMap (κ β : Type) := List (κ × β)

namespace SMap

variable {κ β : Type} [DecidableEq κ] [StrictOrd κ]

/-- Keys strictly increasing: the representation invariant of every `SMap`. -/
def Sorted (m : SMap κ β) : Prop := m.Pairwise (fun a b => StrictOrd.lt a.1 b.1 = true)

/-- `BTreeMap::get`. -/
def get? (m : SMap κ β) (k : κ) : Option β := (m.find? (fun e => e.1 = k)).map (·.2)

/-- `BTreeMap::insert` (replaces the value of an existing key). -/
def insert (m : SMap κ β) (k : κ) (v : β) : SMap κ β :=
  match m with
  | [] => [(k, v)]
  | (k', v') :: rest =>
    if k = k' then (k, v) :: rest
    else if StrictOrd.lt k k' then (k, v) :: (k', v') :: rest
    else (k', v') :: insert rest k v

omit [DecidableEq κ] in
theorem lt_asymm {a b : κ} (h : StrictOrd.lt a b = true) : StrictOrd.lt b a = false := by
  cases hb : StrictOrd.lt b a with
  | false => rfl
  | true =>
    have := StrictOrd.trans a b a h hb
    rw [StrictOrd.irrefl] at this; cases this

omit [DecidableEq κ] in
theorem lt_ne {a b : κ} (h : StrictOrd.lt a b = true) : a ≠ b := by
  rintro rfl; rw [StrictOrd.irrefl] at h; cases h

omit [DecidableEq κ] in
theorem sorted_nil : Sorted ([] : SMap κ β) := List.Pairwise.nil

omit [StrictOrd κ] in
@[simp] theorem get?_nil (k : κ) : get? ([] : SMap κ β) k = none := rfl

omit [StrictOrd κ] in
theorem get?_cons (k k' : κ) (v : β) (m : SMap κ β) :
    get? ((k', v) :: m) k = if k' = k then some v else get? m k := by
  unfold get?
  by_cases h : k' = k <;> simp [h]

theorem mem_insert {m : SMap κ β} {k : κ} {v : β} {e : κ × β} (h : e ∈ insert m k v) :
    e = (k, v) ∨ e ∈ m := by
  induction m with
  | nil => simp [insert] at h; exact .inl h
  | cons x xs ih =>
    obtain ⟨k', v'⟩ := x
    unfold insert at h
    split at h
    · rcases List.mem_cons.mp h with h | h
      · exact .inl h
      · exact .inr (List.mem_cons_of_mem _ h)
    · split at h
      · rcases List.mem_cons.mp h with h | h
        · exact .inl h
        · exact .inr h
      · rcases List.mem_cons.mp h with h | h
        · exact .inr (h ▸ List.mem_cons_self ..)
        · rcases ih h with h | h
          · exact .inl h
          · exact .inr (List.mem_cons_of_mem _ h)

theorem insert_sorted {m : SMap κ β} (h : Sorted m) (k : κ) (v : β) : Sorted (insert m k v) := by
  induction m with
  | nil => simp [insert, Sorted]
  | cons x xs ih =>
    obtain ⟨k', v'⟩ := x
    have h' := h
    unfold Sorted at h
    rw [List.pairwise_cons] at h
    unfold insert
    split
    · rename_i hk; subst hk
      exact List.pairwise_cons.mpr ⟨h.1, h.2⟩
    · split
      · rename_i hlt
        refine List.pairwise_cons.mpr ⟨?_, h'⟩
        intro e he
        rcases List.mem_cons.mp he with rfl | he
        · exact hlt
        · exact StrictOrd.trans _ _ _ hlt (h.1 e he)
      · rename_i hne hlt
        refine List.pairwise_cons.mpr ⟨?_, ih h.2⟩
        intro e he
        rcases mem_insert he with rfl | he
        · cases hc : StrictOrd.lt k' k with
          | true => rfl
          | false => exact absurd (StrictOrd.tri k k' (by simpa using hlt) hc) hne
        · exact h.1 e he

theorem get?_insert {m : SMap κ β} (k k₀ : κ) (v : β) (hs : Sorted m) :
    get? (insert m k v) k₀ = if k = k₀ then some v else get? m k₀ := by
  induction m with
  | nil => simp [insert, get?_cons]
  | cons x xs ih =>
    obtain ⟨k', v'⟩ := x
    unfold Sorted at hs
    rw [List.pairwise_cons] at hs
    unfold insert
    split
    · rename_i hk; subst hk
      simp only [get?_cons]
      split <;> rfl
    · split
      · simp only [get?_cons]
      · rename_i hne hlt
        simp only [get?_cons, ih hs.2]
        by_cases h1 : k' = k₀
        · subst h1; simp [hne]
        · simp [h1]

omit [StrictOrd κ] in
theorem mem_of_get? {m : SMap κ β} {k : κ} {v : β} (h : get? m k = some v) : (k, v) ∈ m := by
  induction m with
  | nil => cases h
  | cons x xs ih =>
    obtain ⟨k', v'⟩ := x
    rw [get?_cons] at h
    split at h
    · rename_i hk; subst hk; cases h; exact List.mem_cons_self ..
    · exact List.mem_cons_of_mem _ (ih h)

theorem get?_of_mem {m : SMap κ β} (hs : Sorted m) {k : κ} {v : β} (h : (k, v) ∈ m) :
    get? m k = some v := by
  induction m with
  | nil => cases h
  | cons x xs ih =>
    obtain ⟨k', v'⟩ := x
    unfold Sorted at hs
    rw [List.pairwise_cons] at hs
    rw [get?_cons]
    rcases List.mem_cons.mp h with h | h
    · cases h; simp
    · have := lt_ne (hs.1 _ h)
      simp only at this
      rw [if_neg this]
      exact ih hs.2 h

theorem mem_iff_get? {m : SMap κ β} (hs : Sorted m) {k : κ} {v : β} :
    (k, v) ∈ m ↔ get? m k = some v := ⟨get?_of_mem hs, mem_of_get?⟩

omit [StrictOrd κ] in
theorem get?_eq_none_iff {m : SMap κ β} {k : κ} : get? m k = none ↔ ∀ v, (k, v) ∉ m := by
  constructor
  · intro h v hv
    induction m with
    | nil => cases hv
    | cons x xs ih =>
      obtain ⟨k', v'⟩ := x
      rw [get?_cons] at h
      split at h
      · cases h
      · rename_i hne
        rcases List.mem_cons.mp hv with h' | h'
        · cases h'; exact hne rfl
        · exact ih h h'
  · intro h
    cases hg : get? m k with
    | none => rfl
    | some v => exact absurd (mem_of_get? hg) (h v)

/-- Two ordered maps with the same lookups are the same list. -/
theorem ext {m n : SMap κ β} (hm : Sorted m) (hn : Sorted n) (h : ∀ k, get? m k = get? n k) : m = n := by
  induction m generalizing n with
  | nil =>
    cases n with
    | nil => rfl
    | cons y ys => obtain ⟨k, v⟩ := y; have := h k; simp [get?_cons] at this
  | cons x xs ih =>
    obtain ⟨k, v⟩ := x
    cases n with
    | nil => have := h k; simp [get?_cons] at this
    | cons y ys =>
      obtain ⟨k', v'⟩ := y
      have hm' := hm
      have hn' := hn
      unfold Sorted at hm hn
      rw [List.pairwise_cons] at hm hn
      have hk : k = k' := by
        apply StrictOrd.tri
        · cases hc : StrictOrd.lt k k' with
          | false => rfl
          | true =>
            have h1 : get? ((k', v') :: ys) k = some v := by rw [← h k]; simp [get?_cons]
            have := mem_of_get? h1
            rcases List.mem_cons.mp this with e | e
            · cases e; rw [StrictOrd.irrefl] at hc; cases hc
            · have := lt_asymm (hn.1 _ e); simp only at this; rw [hc] at this; cases this
        · cases hc : StrictOrd.lt k' k with
          | false => rfl
          | true =>
            have h1 : get? ((k, v) :: xs) k' = some v' := by rw [h k']; simp [get?_cons]
            have := mem_of_get? h1
            rcases List.mem_cons.mp this with e | e
            · cases e; rw [StrictOrd.irrefl] at hc; cases hc
            · have := lt_asymm (hm.1 _ e); simp only at this; rw [hc] at this; cases this
      subst hk
      have hv := h k
      simp [get?_cons] at hv
      subst hv
      congr 1
      apply ih hm.2 hn.2
      intro k₀
      have := h k₀
      simp only [get?_cons] at this
      by_cases hk : k = k₀
      · subst hk
        have a : get? xs k = none := get?_eq_none_iff.mpr fun v hv => lt_ne (hm.1 _ hv) rfl
        have b : get? ys k = none := get?_eq_none_iff.mpr fun v hv => lt_ne (hn.1 _ hv) rfl
        rw [a, b]
      · simpa [hk] using this

omit [DecidableEq κ] in
theorem keys_pairwise_iff {m : SMap κ β} :
    Sorted m ↔ (m.map (·.1)).Pairwise (fun a b => StrictOrd.lt a b = true) := by
  unfold Sorted; rw [List.pairwise_map]

end SMap
end DumpSyms
