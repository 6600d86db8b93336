import Verif.Spec.Symbols
/-!
# Facts about symbol maps
-/
namespace DumpSyms
open Symbols

theorem getLast?_filter_sorted {l : List (Nat × Symbol)} (hs : l.Pairwise fun a b => a.1 < b.1) (P : Nat × Symbol → Bool)
    {e : Nat × Symbol} (h : (l.filter P).getLast? = some e) :
    e ∈ l ∧ P e = true ∧ ∀ x ∈ l, P x = true → x.1 ≤ e.1 := by
  have hm := List.mem_of_getLast? h
  have h2 := List.mem_filter.mp hm
  refine ⟨h2.1, h2.2, ?_⟩
  intro x hx hp
  have hx' : x ∈ l.filter P := List.mem_filter.mpr ⟨hx, hp⟩
  have hs' : (l.filter P).Pairwise fun a b => a.1 < b.1 := hs.sublist (List.filter_sublist)
  generalize l.filter P = q at h hx' hs'
  rw [List.getLast?_eq_some_iff] at h
  obtain ⟨ys, rfl⟩ := h
  rw [List.pairwise_append] at hs'
  rcases List.mem_append.mp hx' with hx' | hx'
  · exact Nat.le_of_lt (hs'.2.2 x hx' e (by simp))
  · simp at hx'; rw [hx']; exact Nat.le_refl _

theorem sorted_lt {m : Symbols} (hs : m.Sorted) : m.Pairwise fun a b => a.1 < b.1 :=
  hs.imp (fun h => by simpa using h)

theorem lastBelow_some {m : Symbols} (hs : m.Sorted) {a b : Nat} {s : Symbol} (h : m.lastBelow a = some (b, s)) :
    Closest m a b s := by
  obtain ⟨h1, h2, h3⟩ := getLast?_filter_sorted (sorted_lt hs) _ h
  simp only [decide_eq_true_eq] at h2 h3
  refine ⟨SMap.get?_of_mem hs h1, h2, ?_⟩
  intro c hbc hca
  rw [SMap.get?_eq_none_iff]
  intro v hv
  have := h3 _ hv hca
  simp only at this
  omega

theorem closest_unique {m : Symbols} {a b b' : Nat} {s s' : Symbol} (h : Closest m a b s) (h' : Closest m a b' s') :
    b = b' ∧ s = s' := by
  obtain ⟨h1, h2, h3⟩ := h
  obtain ⟨k1, k2, k3⟩ := h'
  have : b = b' := by
    rcases Nat.lt_trichotomy b b' with h | h | h
    · have := h3 b' h k2; rw [k1] at this; cases this
    · exact h
    · have := k3 b h h2; rw [h1] at this; cases this
  subst this
  rw [h1] at k1; cases k1
  exact ⟨rfl, rfl⟩

theorem lastBelow_of_closest {m : Symbols} (hs : m.Sorted) {a b : Nat} {s : Symbol} (h : Closest m a b s) :
    m.lastBelow a = some (b, s) := by
  cases hl : m.lastBelow a with
  | none =>
    unfold lastBelow at hl
    rw [List.getLast?_eq_none_iff, List.filter_eq_nil_iff] at hl
    have := hl _ (SMap.mem_of_get? h.1)
    simp at this
    have := h.2.1
    omega
  | some e =>
    obtain ⟨b', s'⟩ := e
    obtain ⟨rfl, rfl⟩ := closest_unique h (lastBelow_some hs hl)
    rfl

theorem Keyed.wadd {m : Symbols} (hk : Keyed m) {b : Nat} {s : Symbol} (h : m.get? b = some s) {a : Nat} (hb : b < a) :
    a < DumpSyms.wadd s.rva s.len ↔ a < b + s.len ∧ b + s.len < M32 := by
  obtain ⟨h1, h2, h3⟩ := hk b s h
  unfold DumpSyms.wadd
  rw [h1]
  by_cases hw : b + s.len < M32
  · rw [Nat.mod_eq_of_lt hw]; simp [hw]
  · have : (b + s.len) % M32 = b + s.len - M32 := by
      rw [Nat.mod_eq_sub_mod (by omega), Nat.mod_eq_of_lt (by omega)]
    rw [this]; constructor <;> intro h <;> omega

theorem isInsideSymbol_iff {m : Symbols} (hs : m.Sorted) (hk : Keyed m) {a : Nat} :
    m.isInsideSymbol a = true ↔ InsideClosest m a := by
  constructor
  · intro h
    unfold isInsideSymbol at h
    cases hl : m.lastBelow a with
    | none => rw [hl] at h; cases h
    | some e =>
      obtain ⟨b, s⟩ := e
      rw [hl] at h
      simp only [decide_eq_true_eq] at h
      have hc := lastBelow_some hs hl
      exact ⟨b, s, hc, (hk.wadd hc.1 hc.2.1).mp h⟩
  · rintro ⟨b, s, hc, h⟩
    unfold isInsideSymbol
    rw [lastBelow_of_closest hs hc]
    simpa using (hk.wadd hc.1 hc.2.1).mpr h

theorem closest_exists {m : Symbols} {a b : Nat} {s : Symbol} (hs : m.Sorted) (h : m.get? b = some s) (hb : b < a) :
    ∃ b' s', Closest m a b' s' ∧ b ≤ b' := by
  cases hl : m.lastBelow a with
  | none =>
    unfold lastBelow at hl
    rw [List.getLast?_eq_none_iff, List.filter_eq_nil_iff] at hl
    have := hl _ (SMap.mem_of_get? h)
    simp at this
    omega
  | some e =>
    obtain ⟨b', s'⟩ := e
    have hc := lastBelow_some hs hl
    refine ⟨b', s', hc, ?_⟩
    apply Classical.byContradiction
    intro hn
    have := hc.2.2 b (by omega) hb
    rw [h] at this; cases this

theorem Keyed.insert {m : Symbols} (hs : m.Sorted) (hk : Keyed m) {a : Nat} {s : Symbol} (h1 : s.rva = a) (h2 : a < M32)
    (h3 : s.len < M32) : Keyed (SMap.insert m a s) := by
  intro b t h
  rw [SMap.get?_insert _ _ _ hs] at h
  split at h
  · rename_i he; cases h; subst he; exact ⟨h1, h2, h3⟩
  · exact hk b t h

theorem get?_orInsert {m : Symbols} (hs : m.Sorted) (k a : Nat) (v : Symbol) :
    SMap.get? (m.orInsert k v) a = if k = a then some ((m.get? k).getD v) else m.get? a := by
  unfold orInsert
  cases h : m.get? k with
  | some w =>
    simp only
    split
    · rename_i he; subst he; rw [h]; rfl
    · rfl
  | none => simp only; rw [SMap.get?_insert _ _ _ hs]; rfl

theorem orInsert_sorted {m : Symbols} (hs : m.Sorted) (k : Nat) (v : Symbol) : (m.orInsert k v).Sorted := by
  unfold orInsert
  split
  · exact hs
  · exact SMap.insert_sorted hs ..

theorem Keyed.orInsert {m : Symbols} (hs : m.Sorted) (hk : Keyed m) {a : Nat} {s : Symbol} (h1 : s.rva = a) (h2 : a < M32)
    (h3 : s.len < M32) : Keyed (m.orInsert a s) := by
  unfold Symbols.orInsert
  split
  · exact hk
  · exact hk.insert hs h1 h2 h3

/-- A step that changes nothing but the symbol at `a`, where the address and length of an existing symbol stay, and
that adds a symbol only outside the closest preceding one. -/
structure FillStep (m m' : Symbols) (a : Nat) : Prop where
  sorted : m'.Sorted
  keyed : Keyed m'
  other : ∀ b, b ≠ a → m'.get? b = m.get? b
  same : ∀ s, m.get? a = some s → ∃ s', m'.get? a = some s' ∧ s'.len = s.len
  new : m.get? a = none → m'.get? a ≠ none → ¬ InsideClosest m a

theorem FillStep.len {m m' : Symbols} {a : Nat} (h : FillStep m m' a) {b : Nat} {s : Symbol} (hb : m.get? b = some s) :
    ∃ s', m'.get? b = some s' ∧ s'.len = s.len := by
  by_cases hba : b = a
  · subst hba; exact h.same s hb
  · exact ⟨s, by rw [h.other b hba, hb], rfl⟩

/-- Inside stays inside. -/
theorem FillStep.inside {m m' : Symbols} {a : Nat} (h : FillStep m m' a) {x b : Nat} {s : Symbol} (hc : Closest m x b s)
    (hx : x < b + s.len) (hf : b + s.len < M32) : ∃ s', Closest m' x b s' ∧ s'.len = s.len := by
  obtain ⟨s', h1, h2⟩ := h.len hc.1
  refine ⟨s', ⟨h1, hc.2.1, ?_⟩, h2⟩
  intro c hbc hcx
  have hc0 := hc.2.2 c hbc hcx
  by_cases hca : c = a
  · subst hca
    apply Classical.byContradiction
    intro hn
    refine h.new hc0 hn ⟨b, s, ⟨hc.1, hbc, ?_⟩, by omega, hf⟩
    intro d hd hdc
    exact hc.2.2 d hd (by omega)
  · rw [h.other c hca, hc0]

theorem FillStep.inside' {m m' : Symbols} {a : Nat} (h : FillStep m m' a) {x : Nat} (hi : InsideClosest m x) :
    InsideClosest m' x := by
  obtain ⟨b, s, hc, hx, hf⟩ := hi
  obtain ⟨s', h1, h2⟩ := h.inside hc hx hf
  exact ⟨b, s', h1, by omega, by omega⟩

/-- An address inside the closest preceding symbol stays free. -/
theorem FillStep.free {m m' : Symbols} {a : Nat} (h : FillStep m m' a) {x : Nat} (hi : InsideClosest m x)
    (hx : m.get? x = none) : m'.get? x = none := by
  by_cases hxa : x = a
  · subst hxa
    apply Classical.byContradiction
    intro hn
    exact h.new hx hn hi
  · rw [h.other x hxa, hx]

end DumpSyms
