import Verif.Spec.Lines
import Verif.Base.Lst
/-! Helper lemmas about `Lines`. -/
namespace DumpSyms
namespace Lines

theorem run_append (ops : List LOp) (op : LOp) : run (ops ++ [op]) = (run ops).apply op := by
  simp [run, List.foldl_append]

theorem run_lines (ops : List LOp) :
    (run ops).lines = (lineEntries ops).map fun t => ({ rva := t.1, len := 0, num := t.2.1, fileId := t.2.2 } : Line) := by
  induction ops using list_snoc_induction with
  | h0 => rfl
  | h1 ops op ih =>
    rw [run_append]
    cases op <;> simp [apply, addLine, addInline, lineEntries, List.filterMap_append, ih] <;> rfl

/-- Invariant of the incremental sortedness flag. -/
theorem run_sorted_inv (ops : List LOp) (h : (run ops).areSorted = true) :
    (run ops).lines.Pairwise (fun a b => a.rva ≤ b.rva) ∧
      ∀ l ∈ (run ops).lines, l.rva ≤ (run ops).lastRva := by
  induction ops using list_snoc_induction with
  | h0 => simp [run, new]
  | h1 ops op ih =>
    rw [run_append] at h ⊢
    cases op with
    | inl s r => exact ih h
    | line r n f =>
      simp only [apply, addLine, Bool.and_eq_true, decide_eq_true_eq] at h ⊢
      obtain ⟨h1, h2⟩ := ih h.1
      constructor
      · rw [List.pairwise_append]
        refine ⟨h1, by simp, ?_⟩
        intro a ha b hb
        simp at hb; subst hb
        exact Nat.le_trans (h2 a ha) h.2
      · intro l hl
        simp at hl
        rcases hl with hl | rfl
        · exact Nat.le_trans (h2 l hl) h.2
        · exact Nat.le_refl _

theorem ensureOrder_sorted_flag (s : Lines) : s.ensureOrder.areSorted = true := by
  unfold ensureOrder
  by_cases h : s.areSorted = true <;> simp [h]

theorem ensureOrder_lines (s : Lines) : s.ensureOrder.lines =
    if s.areSorted then s.lines else isort (fun a b => decide (a.rva ≤ b.rva)) s.lines := by
  unfold ensureOrder
  by_cases h : s.areSorted = true <;> simp [h]

theorem ensureOrder_inlines (s : Lines) : s.ensureOrder.inlines =
    s.inlines.map fun e => (e.1, joinRanges (isort (fun a b => decide (a.rva ≤ b.rva)) e.2)) := by
  unfold ensureOrder
  by_cases h : s.areSorted = true <;> simp [h]

theorem isort_rva_sorted (l : List Line) :
    (isort (fun a b : Line => decide (a.rva ≤ b.rva)) l).Pairwise (fun a b => a.rva ≤ b.rva) := by
  have := isort_sorted (le := fun a b : Line => decide (a.rva ≤ b.rva))
    (by intro a b; simp; omega) (by intro a b c; simp; omega) l
  simpa using this

theorem isort_range_sorted (l : List IRange) :
    (isort (fun a b : IRange => decide (a.rva ≤ b.rva)) l).Pairwise (fun a b => a.rva ≤ b.rva) := by
  have := isort_sorted (le := fun a b : IRange => decide (a.rva ≤ b.rva))
    (by intro a b; simp; omega) (by intro a b c; simp; omega) l
  simpa using this

/-- The lines after `ensureOrder` are the sorted lines in either case. -/
theorem ensureOrder_run_lines (ops : List LOp) :
    (run ops).ensureOrder.lines = isort (fun a b => decide (a.rva ≤ b.rva)) (run ops).lines := by
  rw [ensureOrder_lines]
  split
  · rename_i h
    rw [isort_of_sorted]
    have := (run_sorted_inv ops h).1
    simpa using this
  · rfl

theorem finalize_eq (s : Lines) (a b : Nat) :
    s.finalize a b = .ok { s.ensureOrder with lines := setLens a b s.ensureOrder.lines } := by
  unfold finalize computeLen
  by_cases h : s.ensureOrder.lines = []
  · rw [if_pos h]
    congr 1
    generalize s.ensureOrder = t at h
    cases t; simp at h; subst h; rfl
  · rw [if_neg h]; simp [ensureOrder_sorted_flag]

theorem setLens_triple (a b : Nat) (l : List Line) : (setLens a b l).map Line.triple = l.map Line.triple := by
  fun_induction setLens a b l <;> simp_all [Line.triple]

theorem setLens_length (a b : Nat) (l : List Line) : (setLens a b l).length = l.length := by
  simpa using congrArg List.length (setLens_triple a b l)

theorem setLens_rva (a b : Nat) (l : List Line) : (setLens a b l).map (·.rva) = l.map (·.rva) := by
  have := congrArg (List.map (·.1)) (setLens_triple a b l)
  simpa [Line.triple, Function.comp_def] using this

theorem setLens_head (a b : Nat) (l : List Line) : (setLens a b l).head?.map (·.rva) = l.head?.map (·.rva) := by
  have := congrArg List.head? (setLens_rva a b l)
  simpa using this

theorem setLens_tile (a b : Nat) (l : List Line) (hs : l.Pairwise (fun x y => x.rva ≤ y.rva))
    (hb : ∀ x ∈ l, x.rva < M32) : Adj (fun x y => x.rva + x.len = y.rva) (setLens a b l) := by
  fun_induction setLens a b l with
  | case1 => trivial
  | case2 => trivial
  | case3 => trivial
  | case4 => trivial
  | case5 x y rest ih =>
    rw [List.pairwise_cons] at hs
    have hxy : x.rva ≤ y.rva := hs.1 y (by simp)
    have hy : y.rva < M32 := hb y (by simp)
    apply adj_cons_of_head
    · intro z hz
      have := setLens_head a b (y :: rest)
      rw [hz] at this
      simp at this
      rw [wsub_of_le hxy hy, this]; simp only; omega
    · exact ih hs.2 (fun z hz => hb z (by simp [hz]))

theorem setLens_last (a b : Nat) (l : List Line) (h0 : ∀ x ∈ l, x.len = 0)
    (x : Line) (hx : (setLens a b l).getLast? = some x) :
    if a + b < M32 ∧ x.rva < a + b then x.rva + x.len = a + b else x.len = 0 := by
  fun_induction setLens a b l with
  | case1 => simp at hx
  | case2 last e he hlt =>
    simp at hx; subst hx
    unfold checkedAdd at he
    split at he <;> simp at he
    subst he
    rename_i hM
    simp only [hM, hlt, and_self, if_true]
    rw [wsub_of_le (by omega) hM]; omega
  | case3 last e he hlt =>
    simp at hx; subst hx
    unfold checkedAdd at he
    split at he <;> simp at he
    subst he
    rw [if_neg (by omega)]
    exact h0 _ (by simp)
  | case4 last he =>
    simp at hx; subst hx
    unfold checkedAdd at he
    split at he <;> simp at he
    rw [if_neg (by omega)]
    exact h0 _ (by simp)
  | case5 c d rest ih =>
    refine ih (fun z hz => h0 z (by simp [hz])) ?_
    rw [List.getLast?_cons] at hx
    cases hr : (setLens a b (d :: rest)) with
    | nil => have := setLens_length a b (d :: rest); rw [hr] at this; simp at this
    | cons u v =>
      rw [hr] at hx
      rw [List.getLast?_cons] at hx ⊢
      simpa using hx

/-! ### Ranges -/

theorem run_inlines_sorted (ops : List LOp) : (run ops).inlines.Sorted := by
  induction ops using list_snoc_induction with
  | h0 => exact SMap.sorted_nil
  | h1 ops op ih =>
    rw [run_append]
    cases op with
    | line => exact ih
    | inl s r => exact SMap.insert_sorted ih _ _

theorem run_inlines_get (ops : List LOp) (site : InlineSite) :
    (run ops).inlines.get? site = if rangesOf site ops = [] then none else some (rangesOf site ops) := by
  induction ops using list_snoc_induction with
  | h0 => simp [run, new, rangesOf]
  | h1 ops op ih =>
    rw [run_append]
    cases op with
    | line r n f => simpa [apply, addLine, rangesOf, List.filterMap_append] using ih
    | inl s r =>
      simp only [apply, addInline]
      rw [SMap.get?_insert _ _ _ (run_inlines_sorted ops)]
      by_cases hs : s = site
      · subst hs
        have : rangesOf s (ops ++ [LOp.inl s r]) = rangesOf s ops ++ [r] := by
          simp [rangesOf, List.filterMap_append]
        rw [this, ih]
        by_cases h : rangesOf s ops = [] <;> simp [h]
      · have : rangesOf site (ops ++ [LOp.inl s r]) = rangesOf site ops := by
          simp [rangesOf, List.filterMap_append, hs]
        rw [if_neg hs, this, ih]

theorem get?_map_val {κ β γ : Type} [DecidableEq κ] [StrictOrd κ] (m : SMap κ β) (f : β → γ) (k : κ) :
    SMap.get? (m.map fun e => (e.1, f e.2)) k = (SMap.get? m k).map f := by
  induction m with
  | nil => rfl
  | cons e m ih =>
    obtain ⟨k', v⟩ := e
    simp only [List.map_cons, SMap.get?_cons]
    split
    · rfl
    · exact ih

theorem ensureOrder_inlines_get (s : Lines) (site : InlineSite) :
    s.ensureOrder.inlines.get? site =
      (s.inlines.get? site).map fun rs => joinRanges (isort (fun a b => decide (a.rva ≤ b.rva)) rs) := by
  rw [ensureOrder_inlines]
  exact get?_map_val s.inlines (fun rs => joinRanges (isort (fun a b => decide (a.rva ≤ b.rva)) rs)) site

theorem ensureOrder_inlines_keys (s : Lines) :
    s.ensureOrder.inlines.map (·.1) = s.inlines.map (·.1) := by
  rw [ensureOrder_inlines]; simp [Function.comp_def]

theorem joinFrom_ne_nil (c : IRange) (l : List IRange) : joinFrom c l ≠ [] := by
  fun_induction joinFrom c l <;> simp_all

theorem joinRanges_eq_nil {l : List IRange} : joinRanges l = [] ↔ l = [] := by
  cases l with
  | nil => simp [joinRanges]
  | cons a l => simp [joinRanges, joinFrom_ne_nil]

theorem joinFrom_head (c : IRange) (l : List IRange) : (joinFrom c l).head?.map (·.rva) = some c.rva := by
  fun_induction joinFrom c l with
  | case1 => rfl
  | case2 c n rest h ih => exact ih
  | case3 => rfl

theorem checkedAdd_eq_some {a b c : Nat} (h : checkedAdd a b = some c) : a + b = c ∧ c < M32 := by
  unfold checkedAdd at h
  split at h
  · simp at h; subst h; exact ⟨rfl, by assumption⟩
  · cases h

theorem joinFrom_covers (c : IRange) (l : List IRange)
    (hb : ∀ r ∈ c :: l, r.rva + r.len < M32) (a : Nat) :
    (∃ r ∈ joinFrom c l, r.Covers a) ↔ ∃ r ∈ c :: l, r.Covers a := by
  fun_induction joinFrom c l with
  | case1 => simp
  | case2 c n rest h ih =>
    obtain ⟨h1, _⟩ := checkedAdd_eq_some h
    have hc := hb c (by simp)
    have hn := hb n (by simp)
    have hw : wadd c.len n.len = c.len + n.len := wadd_of_lt (by omega)
    rw [hw] at ih
    rw [hw, ih (by
      intro r hr
      rcases List.mem_cons.mp hr with rfl | hr
      · simp only; omega
      · exact hb r (by simp [hr]))]
    simp only [List.mem_cons, exists_eq_or_imp, IRange.Covers]
    constructor
    · rintro (h | h)
      · by_cases hlt : a < c.rva + c.len
        · exact .inl ⟨h.1, hlt⟩
        · exact .inr (.inl ⟨by omega, by omega⟩)
      · exact .inr (.inr h)
    · rintro (h | h | h)
      · exact .inl ⟨h.1, by omega⟩
      · exact .inl ⟨by omega, by omega⟩
      · exact .inr h
  | case3 c n rest h ih =>
    have := ih (fun r hr => hb r (by simp [List.mem_cons.mp hr]))
    simp only [List.mem_cons, exists_eq_or_imp] at this ⊢
    rw [this]

theorem joinFrom_mem_ge (c : IRange) (l : List IRange) (m : Nat) (hc : m ≤ c.rva) (h : ∀ r ∈ l, m ≤ r.rva) :
    ∀ r ∈ joinFrom c l, m ≤ r.rva := by
  fun_induction joinFrom c l with
  | case1 => simpa using hc
  | case2 c n rest _ ih => exact ih hc (fun r hr => h r (by simp [hr]))
  | case3 c n rest _ ih =>
    intro r hr
    rcases List.mem_cons.mp hr with rfl | hr
    · exact hc
    · exact ih (h n (by simp)) (fun r hr => h r (by simp [hr])) r hr

theorem joinFrom_sorted (c : IRange) (l : List IRange)
    (hs : (c :: l).Pairwise (fun a b => a.rva ≤ b.rva)) :
    (joinFrom c l).Pairwise (fun a b => a.rva ≤ b.rva) := by
  fun_induction joinFrom c l with
  | case1 => simp
  | case2 c n rest _ ih =>
    apply ih
    rw [List.pairwise_cons] at hs ⊢
    refine ⟨fun r hr => hs.1 r (by simp [hr]), (List.pairwise_cons.mp hs.2).2⟩
  | case3 c n rest _ ih =>
    rw [List.pairwise_cons] at hs ⊢
    refine ⟨?_, ih hs.2⟩
    intro r hr
    exact joinFrom_mem_ge n rest c.rva (hs.1 n (by simp)) (fun r hr => hs.1 r (by simp [hr])) r hr

theorem joinFrom_gap (c : IRange) (l : List IRange) (hb : ∀ r ∈ l, r.rva < M32) :
    Adj (fun x y => x.rva + x.len ≠ y.rva) (joinFrom c l) := by
  fun_induction joinFrom c l with
  | case1 => trivial
  | case2 c n rest h ih => exact ih (fun r hr => hb r (by simp [hr]))
  | case3 c n rest h ih =>
    apply adj_cons_of_head
    · intro z hz heq
      have := joinFrom_head n rest
      rw [hz] at this
      simp at this
      apply h
      have hn := hb n (by simp)
      unfold checkedAdd
      rw [if_pos (by omega), heq, this]
    · exact ih (fun r hr => hb r (by simp [hr]))

theorem inlineKeyLe_total (a b : InlineSite × List IRange) : inlineKeyLe a b = true ∨ inlineKeyLe b a = true := by
  unfold inlineKeyLe; simp; omega

theorem inlineKeyLe_trans (a b c : InlineSite × List IRange) (h1 : inlineKeyLe a b = true) (h2 : inlineKeyLe b c = true) :
    inlineKeyLe a c = true := by
  unfold inlineKeyLe at *; simp at *; omega

end Lines
end DumpSyms
