import Verif.Proof.Line
/-!
# C01-C04: line and inline records of one function
-/
namespace DumpSyms
open Lines

/-- A history used by the non-vacuity examples: lines out of order (two at the same address), one call site with
ranges out of order of which two touch, another call site. -/
def sampleOps : List LOp :=
  [.line 0x1010 12 1, .line 0x1000 10 1, .inl ⟨0, 0, 5, 1⟩ ⟨0x1008, 4⟩, .line 0x1010 13 2,
   .inl ⟨0, 0, 5, 1⟩ ⟨0x1000, 8⟩, .inl ⟨1, 1, 7, 2⟩ ⟨0x1002, 2⟩, .inl ⟨0, 0, 5, 1⟩ ⟨0x1014, 2⟩]

/-- **C01.** Whatever was inserted, the finalized line records are in non-decreasing address order; for every address,
the records at that address are exactly the inserted ones, in insertion order. -/
theorem C01_lines_sorted_complete (ops : List LOp) (symRva symLen : Nat) :
    ∃ L, (run ops).finalize symRva symLen = .ok L ∧
      L.lines.Pairwise (fun a b => a.rva ≤ b.rva) ∧
      (L.lines.map Line.triple).Perm (lineEntries ops) ∧
      ∀ a, (L.lines.map Line.triple).filter (fun t => decide (t.1 = a)) =
        (lineEntries ops).filter (fun t => decide (t.1 = a)) := by
  refine ⟨_, finalize_eq _ _ _, ?_, ?_, ?_⟩
  · have h := isort_rva_sorted (run ops).lines
    rw [← ensureOrder_run_lines] at h
    have h2 := setLens_rva symRva symLen (run ops).ensureOrder.lines
    have h3 : ((run ops).ensureOrder.lines.map (·.rva)).Pairwise (· ≤ ·) := by
      rw [List.pairwise_map]; exact h
    rw [← h2, List.pairwise_map] at h3
    exact h3
  · simp only [setLens_triple, ensureOrder_run_lines]
    have h := (isort_perm (fun a b : Line => decide (a.rva ≤ b.rva)) (run ops).lines).map Line.triple
    refine h.trans ?_
    rw [run_lines, List.map_map]
    have : (Line.triple ∘ fun t : Nat × Nat × Nat => ({ rva := t.1, len := 0, num := t.2.1, fileId := t.2.2 } : Line)) = id := by
      funext t; rfl
    rw [this]; simp
  · intro a
    simp only [setLens_triple, ensureOrder_run_lines]
    rw [List.filter_map]
    have h := filter_isort (le := fun a b : Line => decide (a.rva ≤ b.rva)) (fun l : Line => decide (l.rva = a))
      (by intro x y hx hy; simp at *; omega) (run ops).lines
    have hf : ((fun t : Nat × Nat × Nat => decide (t.1 = a)) ∘ Line.triple) = fun l : Line => decide (l.rva = a) := by
      funext l; rfl
    rw [hf, h, run_lines, List.filter_map, List.map_map]
    have : (Line.triple ∘ fun t : Nat × Nat × Nat => ({ rva := t.1, len := 0, num := t.2.1, fileId := t.2.2 } : Line)) = id := by
      funext t; rfl
    rw [this]
    simp [Function.comp_def]

example : ((run sampleOps).finalize 0x1000 0x20).bind (fun L => .ok (L.lines.map Line.triple)) =
    .ok [(0x1000, 10, 1), (0x1010, 12, 1), (0x1010, 13, 2)] := by decide

/-- **C02 (sizes).** After finalization every record ends where the next one starts, and the last record ends at the end
of the function when it starts before it and the end is a 32-bit address; otherwise its size is 0. -/
theorem C02_line_sizes_tile (ops : List LOp) (symRva symLen : Nat)
    (hb : ∀ t ∈ lineEntries ops, t.1 < M32) :
    ∃ L, (run ops).finalize symRva symLen = .ok L ∧
      (∀ i (h : i + 1 < L.lines.length), L.lines[i].rva + L.lines[i].len = L.lines[i + 1].rva) ∧
      (∀ l, L.lines.getLast? = some l →
        if symRva + symLen < M32 ∧ l.rva < symRva + symLen then l.rva + l.len = symRva + symLen else l.len = 0) := by
  refine ⟨_, finalize_eq _ _ _, ?_, ?_⟩
  · intro i h
    refine (setLens_tile symRva symLen _ ?_ ?_).getElem i h
    · rw [ensureOrder_run_lines]; exact isort_rva_sorted _
    · intro x hx
      rw [ensureOrder_run_lines, mem_isort, run_lines, List.mem_map] at hx
      obtain ⟨t, ht, rfl⟩ := hx
      exact hb t ht
  · intro l hl
    refine setLens_last symRva symLen _ ?_ l hl
    intro x hx
    rw [ensureOrder_run_lines, mem_isort, run_lines, List.mem_map] at hx
    obtain ⟨t, ht, rfl⟩ := hx
    rfl

example : ((run sampleOps).finalize 0x1000 0x20).bind (fun L => .ok (L.lines.map fun l => (l.rva, l.len))) =
    .ok [(0x1000, 0x10), (0x1010, 0), (0x1010, 0x10)] := by decide

/-- Lookup in any list of records whose sizes tile. -/
theorem tile_lookup (l : List Line) (ht : Adj (fun x y => x.rva + x.len = y.rva) l) (a : Nat)
    (h0 : ∀ x, l.head? = some x → x.rva ≤ a) (hne : l ≠ [])
    (hl : ∀ x, l.getLast? = some x → a < x.rva + x.len) :
    ∃ i, ∃ h : i < l.length, l[i].Covers a ∧ (∀ j (hj : j < l.length), l[j].Covers a → j = i) ∧
      ∀ j (hj : j < l.length), l[j].rva ≤ a → l[j].rva ≤ l[i].rva := by
  induction l with
  | nil => exact absurd rfl hne
  | cons x l ih =>
    have hx := h0 x rfl
    -- every later record starts at or after the end of `x`
    have hge : ∀ (x : Line) (l : List Line), Adj (fun x y => x.rva + x.len = y.rva) (x :: l) →
        ∀ y ∈ l, x.rva + x.len ≤ y.rva := by
      intro x l
      induction l generalizing x with
      | nil => simp
      | cons z l ih =>
        intro h y hy
        have h1 : x.rva + x.len = z.rva := h.1
        rcases List.mem_cons.mp hy with rfl | hy
        · omega
        · have := ih z h.2 y hy; omega
    by_cases hc : a < x.rva + x.len
    · refine ⟨0, by simp, ⟨hx, hc⟩, ?_, ?_⟩
      · intro j hj hcov
        cases j with
        | zero => rfl
        | succ j =>
          have hm : l[j]'(by simpa using hj) ∈ l := List.getElem_mem _
          have := hge x l ht _ hm
          have h3 : (l[j]'(by simpa using hj)).rva ≤ a := by simpa using hcov.1
          omega
      · intro j hj hle
        cases j with
        | zero => exact Nat.le_refl _
        | succ j =>
          have hm : l[j]'(by simpa using hj) ∈ l := List.getElem_mem _
          have := hge x l ht _ hm
          have h3 : (l[j]'(by simpa using hj)).rva ≤ a := by simpa using hle
          omega
    · cases l with
      | nil => exact absurd (hl x rfl) hc
      | cons y l =>
        obtain ⟨i, hi, h1, h2, h3⟩ := ih ht.2
          (by intro z hz; simp at hz; subst hz; have : x.rva + x.len = y.rva := ht.1; omega) (by simp)
          (by intro z hz; apply hl; rw [List.getLast?_cons_cons]; exact hz)
        refine ⟨i + 1, by simpa using hi, by simpa using h1, ?_, ?_⟩
        · intro j hj hcov
          cases j with
          | zero => exact absurd hcov.2 (by simpa using hc)
          | succ j => have := h2 j (by simpa using hj) (by simpa using hcov); omega
        · intro j hj hle
          cases j with
          | zero =>
            have := hge x (y :: l) ht ((y :: l)[i]) (List.getElem_mem _)
            simp only [List.getElem_cons_zero, List.getElem_cons_succ]; omega
          | succ j => simpa using h3 j (by simpa using hj) (by simpa using hle)

/-- **C02 (lookup).** Every address from the first record up to the end of the function is covered by exactly one
record, and that record has the greatest start not above the address. -/
theorem C02_reader_lookup (ops : List LOp) (symRva symLen : Nat)
    (hb : ∀ t ∈ lineEntries ops, t.1 < M32) (hend : symRva + symLen < M32) :
    ∃ L, (run ops).finalize symRva symLen = .ok L ∧
      ∀ a, (∃ l ∈ L.lines, l.rva ≤ a) → a < symRva + symLen →
        ∃ i, ∃ h : i < L.lines.length, L.lines[i].Covers a ∧
          (∀ j (hj : j < L.lines.length), L.lines[j].Covers a → j = i) ∧
          ∀ j (hj : j < L.lines.length), L.lines[j].rva ≤ a → L.lines[j].rva ≤ L.lines[i].rva := by
  have hs := isort_rva_sorted (run ops).lines
  rw [← ensureOrder_run_lines] at hs
  have hb' : ∀ x ∈ (run ops).ensureOrder.lines, x.rva < M32 := by
    intro x hx
    rw [ensureOrder_run_lines, mem_isort, run_lines, List.mem_map] at hx
    obtain ⟨t, ht, rfl⟩ := hx
    exact hb t ht
  have hz : ∀ x ∈ (run ops).ensureOrder.lines, x.len = 0 := by
    intro x hx
    rw [ensureOrder_run_lines, mem_isort, run_lines, List.mem_map] at hx
    obtain ⟨t, ht, rfl⟩ := hx
    rfl
  refine ⟨_, finalize_eq _ _ _, ?_⟩
  intro a ⟨l0, hl0, hla⟩ hae
  simp only at hl0 ⊢
  have htile := setLens_tile symRva symLen _ hs hb'
  have hlast := setLens_last symRva symLen _ hz
  have hrvas : ((setLens symRva symLen (run ops).ensureOrder.lines).map (·.rva)).Pairwise (· ≤ ·) := by
    rw [setLens_rva, List.pairwise_map]; exact hs
  rw [List.pairwise_map] at hrvas
  generalize setLens symRva symLen (run ops).ensureOrder.lines = ls at *
  have hhead : ∀ x, ls.head? = some x → x.rva ≤ a := by
    intro x hx
    cases ls with
    | nil => simp at hx
    | cons y ls =>
      simp at hx; subst hx
      rcases List.mem_cons.mp hl0 with rfl | h
      · exact hla
      · have := (List.pairwise_cons.mp hrvas).1 l0 h; omega
  by_cases hlt : ∀ x, ls.getLast? = some x → a < x.rva + x.len
  · exact tile_lookup ls htile a hhead (by intro h; rw [h] at hl0; simp at hl0) hlt
  · exfalso
    apply hlt
    intro x hx
    have := hlast x hx
    by_cases h : x.rva < symRva + symLen
    · rw [if_pos ⟨hend, h⟩] at this; omega
    · omega

example : ∃ l ∈ ({ rva := 0x1000, len := 0x10, num := 10, fileId := 1 } : Line) :: [], l.Covers 0x100f := by
  exact ⟨_, List.mem_cons_self, by unfold Line.Covers; decide⟩

/-- **C03.** After finalization a call site keeps exactly the addresses it was given: its ranges are sorted, no two
consecutive ranges touch, there is at least one, and they cover the inserted addresses.  Call sites that got no range
have no entry. -/
theorem C03_inline_ranges (ops : List LOp) (symRva symLen : Nat) (site : InlineSite)
    (hb : ∀ r ∈ rangesOf site ops, r.rva + r.len < M32) :
    ∃ L, (run ops).finalize symRva symLen = .ok L ∧
      (rangesOf site ops = [] → L.inlines.get? site = none) ∧
      (rangesOf site ops ≠ [] → ∃ rs, L.inlines.get? site = some rs ∧ rs ≠ [] ∧
        rs.Pairwise (fun a b => a.rva ≤ b.rva) ∧
        (∀ i (h : i + 1 < rs.length), rs[i].rva + rs[i].len ≠ rs[i + 1].rva) ∧
        ∀ a, (∃ r ∈ rs, r.Covers a) ↔ ∃ r ∈ rangesOf site ops, r.Covers a) := by
  refine ⟨_, finalize_eq _ _ _, ?_, ?_⟩
  · intro h
    simp only
    rw [ensureOrder_inlines_get, run_inlines_get, if_pos h]; rfl
  · intro h
    simp only
    rw [ensureOrder_inlines_get, run_inlines_get, if_neg h]
    refine ⟨joinRanges (isort (fun a b => decide (a.rva ≤ b.rva)) (rangesOf site ops)), rfl, ?_, ?_, ?_, ?_⟩
    · intro hn
      rw [joinRanges_eq_nil, isort_eq_nil] at hn
      exact h hn
    · have hs := isort_range_sorted (rangesOf site ops)
      generalize isort (fun a b : IRange => decide (a.rva ≤ b.rva)) (rangesOf site ops) = l at hs
      cases l with
      | nil => simp [joinRanges]
      | cons c l => exact joinFrom_sorted c l hs
    · intro i hi
      refine Adj.getElem (R := fun x y : IRange => x.rva + x.len ≠ y.rva) ?_ i hi
      have hm : ∀ r ∈ isort (fun a b : IRange => decide (a.rva ≤ b.rva)) (rangesOf site ops), r.rva < M32 := by
        intro r hr; have := hb r (mem_isort.mp hr); omega
      revert hm
      generalize isort (fun a b : IRange => decide (a.rva ≤ b.rva)) (rangesOf site ops) = l
      intro hm
      cases l with
      | nil => trivial
      | cons c l => exact joinFrom_gap c l (fun r hr => hm r (by simp [hr]))
    · intro a
      have hm : ∀ r, r ∈ isort (fun a b : IRange => decide (a.rva ≤ b.rva)) (rangesOf site ops) ↔
        r ∈ rangesOf site ops := fun r => mem_isort
      have h1 : (∃ r ∈ rangesOf site ops, r.Covers a) ↔
          ∃ r ∈ isort (fun a b : IRange => decide (a.rva ≤ b.rva)) (rangesOf site ops), r.Covers a := by
        simp only [hm]
      rw [h1]
      have hb' : ∀ r ∈ isort (fun a b : IRange => decide (a.rva ≤ b.rva)) (rangesOf site ops), r.rva + r.len < M32 :=
        fun r hr => hb r ((hm r).mp hr)
      revert hb'
      generalize isort (fun a b : IRange => decide (a.rva ≤ b.rva)) (rangesOf site ops) = l
      intro hb'
      cases l with
      | nil => simp [joinRanges]
      | cons c l => exact joinFrom_covers c l hb' a

example : ((run sampleOps).finalize 0x1000 0x20).bind (fun L => .ok (L.inlines.get? ⟨0, 0, 5, 1⟩)) =
    .ok (some [⟨0x1000, 12⟩, ⟨0x1014, 2⟩]) := by decide

/-- The bound in C03 is needed: two touching halves of the whole 32-bit space are joined into a range of length 0 in a
release build (a debug build panics). -/
theorem C03_bound_needed : joinRanges [⟨0, 2147483648⟩, ⟨2147483648, 2147483648⟩] = [⟨0, 0⟩] := by decide

/-- After finalization each call site occurs once, exactly the sites with an insertion occur, and all have a range. -/
theorem finalized_sites (ops : List LOp) (symRva symLen : Nat) :
    ∃ L, (run ops).finalize symRva symLen = .ok L ∧ SMap.Sorted L.inlines ∧ (∀ e ∈ L.inlines, e.2 ≠ []) ∧
      ∀ site, (∃ rs, (site, rs) ∈ L.inlines) ↔ rangesOf site ops ≠ [] := by
  refine ⟨_, finalize_eq _ _ _, ?_, ?_, ?_⟩
  · show SMap.Sorted (run ops).ensureOrder.inlines
    have := run_inlines_sorted ops
    rw [SMap.keys_pairwise_iff] at this ⊢
    rw [ensureOrder_inlines_keys]; exact this
  · intro e (he : e ∈ (run ops).ensureOrder.inlines)
    rw [ensureOrder_inlines, List.mem_map] at he
    obtain ⟨e', he', rfl⟩ := he
    intro hn
    simp only [joinRanges_eq_nil, isort_eq_nil] at hn
    have := SMap.get?_of_mem (k := e'.1) (v := e'.2) (run_inlines_sorted ops) he'
    rw [run_inlines_get] at this
    split at this
    · simp at this
    · simp at this; rw [hn] at this; contradiction
  · intro site
    show (∃ rs, (site, rs) ∈ (run ops).ensureOrder.inlines) ↔ rangesOf site ops ≠ []
    have hsort : SMap.Sorted (run ops).ensureOrder.inlines := by
      have := run_inlines_sorted ops
      rw [SMap.keys_pairwise_iff] at this ⊢
      rw [ensureOrder_inlines_keys]; exact this
    have hg := ensureOrder_inlines_get (run ops) site
    rw [run_inlines_get] at hg
    constructor
    · rintro ⟨rs, h⟩
      rw [SMap.get?_of_mem hsort h] at hg
      intro hn; rw [if_pos hn] at hg; simp at hg
    · intro h
      rw [if_neg h] at hg
      exact ⟨_, SMap.mem_of_get? hg⟩

example : ((run sampleOps).finalize 0x1000 0x20).bind (fun L => L.display) = .ok (str%
"INLINE 0 5 1 0 1000 c 1014 2\nINLINE 1 7 2 1 1002 2\n1000 10 10 1\n1010 0 12 1\n1010 10 13 2\n") := by decide

end DumpSyms
