import Verif.Props.Line
import Verif.Proof.CollectAll
import Verif.Proof.InlineTree
/-!
# Looking addresses up in finalized line records
-/
namespace DumpSyms
open Collector Lines

theorem mem_lineEntries {ops : List LOp} {s n f : Nat} : (s, n, f) ∈ lineEntries ops ↔ LOp.line s n f ∈ ops := by
  unfold lineEntries
  rw [List.mem_filterMap]
  constructor
  · rintro ⟨op, hop, he⟩
    cases op with
    | line a b c => simp at he; obtain ⟨rfl, rfl, rfl⟩ := he; exact hop
    | inl => simp at he
  · intro h; exact ⟨_, h, rfl⟩

theorem mem_rangesOf {ops : List LOp} {site : InlineSite} {q : IRange} :
    q ∈ rangesOf site ops ↔ LOp.inl site q ∈ ops := by
  unfold rangesOf
  rw [List.mem_filterMap]
  constructor
  · rintro ⟨op, hop, he⟩
    cases op with
    | line a b c => simp at he
    | inl s r =>
      by_cases hs : s = site
      · simp [hs] at he; subst he hs; exact hop
      · simp [hs] at he
  · intro h; exact ⟨_, h, by simp⟩

/-- The triples of the finalized lines are the inserted ones. -/
theorem finalized_triples (ops : List LOp) (a b : Nat) :
    (((run ops).finalized a b).lines.map Line.triple).Perm (lineEntries ops) := by
  obtain ⟨L, h1, _, h2, _⟩ := C01_lines_sorted_complete ops a b
  rw [finalize_eq] at h1
  cases h1
  exact h2

theorem mem_finalized {ops : List LOp} {a b : Nat} {l : Line} (h : l ∈ ((run ops).finalized a b).lines) :
    LOp.line l.rva l.num l.fileId ∈ ops := by
  rw [← mem_lineEntries, ← (finalized_triples ops a b).mem_iff]
  exact List.mem_map.mpr ⟨l, h, rfl⟩

theorem finalized_mem {ops : List LOp} (a b : Nat) {s n f : Nat} (h : LOp.line s n f ∈ ops) :
    ∃ l ∈ ((run ops).finalized a b).lines, l.rva = s ∧ l.num = n ∧ l.fileId = f := by
  rw [← mem_lineEntries, ← (finalized_triples ops a b).mem_iff, List.mem_map] at h
  obtain ⟨l, hl, ht⟩ := h
  simp only [Line.triple, Prod.mk.injEq] at ht
  exact ⟨l, hl, ht⟩

/-- Lookup when all records starting in `[s, a]` agree. -/
theorem lookup_of_agree {ops : List LOp} {symRva symLen : Nat} (hb : ∀ s n f, LOp.line s n f ∈ ops → s < M32)
    (hend : symRva + symLen < M32) {a s n f : Nat} (ha : a < symRva + symLen) (hs : s ≤ a) (hm : LOp.line s n f ∈ ops)
    (hu : ∀ s' n' f', LOp.line s' n' f' ∈ ops → s ≤ s' → s' ≤ a → n' = n ∧ f' = f) :
    lookupLine ((run ops).finalized symRva symLen).lines a = some (n, f) := by
  obtain ⟨L, h1, h2⟩ := C02_reader_lookup ops symRva symLen
    (by rintro ⟨s', n', f'⟩ ht; exact hb s' n' f' (mem_lineEntries.mp ht)) hend
  have hL : (run ops).finalized symRva symLen = L := by
    rw [finalize_eq] at h1; exact Res.ok.inj h1
  obtain ⟨l0, hl0, e1, e2, e3⟩ := finalized_mem symRva symLen hm
  have hmem : ∀ l ∈ ((run ops).finalized symRva symLen).lines, LOp.line l.rva l.num l.fileId ∈ ops :=
    fun l hl => mem_finalized hl
  rw [hL] at hl0 hmem ⊢
  obtain ⟨i, hi, hc, huniq, hmax⟩ := h2 a ⟨l0, hl0, by omega⟩ ha
  generalize L.lines = ls at *
  obtain ⟨j0, hj0, rfl⟩ := List.getElem_of_mem hl0
  have hge := hmax j0 hj0 (by omega)
  have hinfo := hu _ _ _ (hmem ls[i] (List.getElem_mem hi)) (by omega) hc.1
  unfold lookupLine
  cases hf : ls.find? (fun l => decide (l.rva ≤ a ∧ a < l.rva + l.len)) with
  | none =>
    have := List.find?_eq_none.mp hf ls[i] (List.getElem_mem hi)
    simp only [decide_eq_true_eq] at this
    exact absurd ⟨hc.1, hc.2⟩ this
  | some l =>
    have h1 := List.find?_some hf
    have h2 := List.mem_of_find?_eq_some hf
    obtain ⟨j, hj, rfl⟩ := List.getElem_of_mem h2
    simp only [decide_eq_true_eq] at h1
    have := huniq j hj ⟨h1.1, h1.2⟩
    subst this
    simp [hinfo.1, hinfo.2]

theorem finalized_sorted_triples {ops : List LOp} (hsort : (lineEntries ops).Pairwise fun x y => x.1 ≤ y.1)
    (symRva symLen : Nat) : ((run ops).finalized symRva symLen).lines.map Line.triple = lineEntries ops := by
  unfold finalized
  simp only [setLens_triple, ensureOrder_run_lines]
  rw [isort_of_sorted, run_lines, List.map_map]
  · have : (Line.triple ∘ fun t : Nat × Nat × Nat => ({ rva := t.1, len := 0, num := t.2.1, fileId := t.2.2 } : Line)) = id := by
      funext t; rfl
    rw [this]; simp
  · rw [run_lines, List.pairwise_map]
    exact hsort.imp (by intro x y h; simpa using h)

/-- Lookup in insertions made in address order: the last one not above the address. -/
theorem lookup_of_sorted {ops : List LOp} {symRva symLen : Nat} (hb : ∀ s n f, LOp.line s n f ∈ ops → s < M32)
    (hsort : (lineEntries ops).Pairwise fun x y => x.1 ≤ y.1)
    (hend : symRva + symLen < M32) {a s n f : Nat} (ha : a < symRva + symLen) {p q : List (Nat × Nat × Nat)}
    (he : lineEntries ops = p ++ (s, n, f) :: q) (hs : s ≤ a) (hq : ∀ t ∈ q, a < t.1) :
    lookupLine ((run ops).finalized symRva symLen).lines a = some (n, f) := by
  obtain ⟨L, h1, h2⟩ := C02_reader_lookup ops symRva symLen
    (by rintro ⟨s', n', f'⟩ ht; exact hb s' n' f' (mem_lineEntries.mp ht)) hend
  have hL : (run ops).finalized symRva symLen = L := by
    rw [finalize_eq] at h1; exact Res.ok.inj h1
  have htile : Adj (fun x y : Line => x.rva + x.len = y.rva) ((run ops).finalized symRva symLen).lines := by
    apply setLens_tile
    · rw [ensureOrder_run_lines]; exact isort_rva_sorted _
    · intro x hx
      rw [ensureOrder_run_lines, mem_isort, run_lines, List.mem_map] at hx
      obtain ⟨⟨s', n', f'⟩, ht, rfl⟩ := hx
      exact hb s' n' f' (mem_lineEntries.mp ht)
  have htr := finalized_sorted_triples hsort symRva symLen
  rw [hL] at htile htr ⊢
  generalize L.lines = ls at *
  have hlen : p.length < ls.length := by
    have := congrArg List.length htr
    rw [he] at this
    simp at this; omega
  have hget : ls[p.length].triple = (s, n, f) := by
    have : (ls.map Line.triple)[p.length]? = some (s, n, f) := by rw [htr, he]; simp
    rw [List.getElem?_map, List.getElem?_eq_getElem hlen] at this
    simpa using this
  have hget' : ls[p.length].rva = s ∧ ls[p.length].num = n ∧ ls[p.length].fileId = f := by
    simpa [Line.triple] using hget
  obtain ⟨i, hi, hc, huniq, _⟩ := h2 a ⟨ls[p.length], List.getElem_mem _, by omega⟩ ha
  have hsl : ls.Pairwise fun x y => x.rva ≤ y.rva := by
    rw [← htr, List.pairwise_map] at hsort
    exact hsort
  have hi1 : i ≤ p.length := by
    apply Classical.byContradiction
    intro hn
    have hmem : ls[i].triple ∈ q := by
      have : (ls.map Line.triple)[i]? = some ls[i].triple := by
        rw [List.getElem?_map, List.getElem?_eq_getElem hi]; rfl
      rw [htr, he, List.getElem?_append_right (by omega)] at this
      obtain ⟨k, hk⟩ : ∃ k, i - p.length = k + 1 := ⟨i - p.length - 1, by omega⟩
      rw [hk, List.getElem?_cons_succ] at this
      exact List.mem_of_getElem? this
    have := hq _ hmem
    have h3 := hc.1
    simp only [Line.triple] at this
    omega
  have hi2 : i = p.length := by
    apply Classical.byContradiction
    intro hn
    have h4 := htile.getElem i (by omega)
    have h5 := hc.2
    have h6 : ls[i + 1].rva ≤ ls[p.length].rva := by
      by_cases h : i + 1 = p.length
      · simp [h]
      · exact List.pairwise_iff_getElem.mp hsl (i + 1) p.length (by omega) (by omega) (by omega)
    omega
  subst hi2
  unfold lookupLine
  cases hf : ls.find? (fun l => decide (l.rva ≤ a ∧ a < l.rva + l.len)) with
  | none =>
    have := List.find?_eq_none.mp hf ls[p.length] (List.getElem_mem hlen)
    simp only [decide_eq_true_eq] at this
    exact absurd ⟨hc.1, hc.2⟩ this
  | some l =>
    have h1 := List.find?_some hf
    have h2 := List.mem_of_find?_eq_some hf
    obtain ⟨j, hj, rfl⟩ := List.getElem_of_mem h2
    simp only [decide_eq_true_eq] at h1
    have := huniq j hj ⟨h1.1, h1.2⟩
    subst this
    simp [hget'.2.1, hget'.2.2]

/-- The entries of `opsFlat` when the last non-zero line not above `a` is `l`. -/
theorem opsFlat_last (fid : ByteSlice → FileInfo → Nat) (comp : ByteSlice) (pre : List LineInfo) (l : LineInfo)
    (post : List LineInfo) (a : Nat) (hl : l.line ≠ 0) (hla : u32 l.address ≤ a)
    (hpre : ∀ x ∈ pre, u32 x.address ≤ u32 l.address)
    (hpost : ∀ x ∈ post, x.line ≠ 0 → a < u32 x.address) :
    ∀ prev, (prev = some (l.line, fid comp l.file) ∧
        ∀ t ∈ lineEntries (opsFlat fid comp (pre ++ l :: post) prev), a < t.1) ∨
      ∃ p s q, lineEntries (opsFlat fid comp (pre ++ l :: post) prev) = p ++ (s, u32 l.line, fid comp l.file) :: q ∧
        s ≤ a ∧ ∀ t ∈ q, a < t.1 := by
  have hq : ∀ (post : List LineInfo), (∀ x ∈ post, x.line ≠ 0 → a < u32 x.address) → ∀ prev,
      ∀ t ∈ lineEntries (opsFlat fid comp post prev), a < t.1 := by
    intro post
    induction post with
    | nil => intro _ prev t ht; simp [opsFlat, lineEntries] at ht
    | cons x post ih =>
      intro h prev t ht
      have ih := ih (fun y hy => h y (by simp [hy]))
      unfold opsFlat at ht
      split at ht
      · exact ih prev t ht
      · split at ht
        · simp only [lineEntries, List.filterMap_cons, List.mem_cons] at ht
          rcases ht with rfl | ht
          · exact h x (by simp) (by assumption)
          · exact ih _ t ht
        · exact ih prev t ht
  induction pre with
  | nil =>
    intro prev
    simp only [List.nil_append]
    unfold opsFlat
    rw [if_neg hl]
    by_cases hp : prev = some (l.line, fid comp l.file)
    · rw [if_neg (by simpa using hp)]
      exact .inl ⟨hp, hq post hpost prev⟩
    · rw [if_pos hp]
      exact .inr ⟨[], u32 l.address, lineEntries (opsFlat fid comp post (some (l.line, fid comp l.file))),
        rfl, hla, hq post hpost _⟩
  | cons x pre ih =>
    intro prev
    have ih := ih (fun y hy => hpre y (by simp [hy]))
    simp only [List.cons_append]
    unfold opsFlat
    by_cases h0 : x.line = 0
    · rw [if_pos h0]; exact ih prev
    · rw [if_neg h0]
      by_cases hp : prev = some (x.line, fid comp x.file)
      · rw [if_neg (by simpa using hp)]; exact ih prev
      · rw [if_pos hp]
        rcases ih (some (x.line, fid comp x.file)) with ⟨h1, h2⟩ | ⟨p, s, q, h1, h2, h3⟩
        · simp only [Option.some.injEq, Prod.mk.injEq] at h1
          refine .inr ⟨[], u32 x.address, _, ?_, Nat.le_trans (hpre x (by simp)) hla, h2⟩
          simp only [lineEntries, List.filterMap_cons, List.nil_append]
          rw [h1.1, h1.2]
        · refine .inr ⟨(u32 x.address, u32 x.line, fid comp x.file) :: p, s, q, ?_, h2, h3⟩
          simp only [lineEntries, List.filterMap_cons, List.cons_append]
          rw [← h1]; rfl

/-- The addresses recorded by `opsFlat` are a selection of those of the lines, in order. -/
theorem opsFlat_sublist (fid : ByteSlice → FileInfo → Nat) (comp : ByteSlice) (ls : List LineInfo) :
    ∀ prev, ((lineEntries (opsFlat fid comp ls prev)).map (·.1)).Sublist (ls.map fun l => u32 l.address) := by
  induction ls with
  | nil => intro prev; simp [opsFlat, lineEntries]
  | cons l ls ih =>
    intro prev
    unfold opsFlat
    split
    · exact (ih prev).trans (by simp)
    · split
      · simp only [lineEntries, List.filterMap_cons, List.map_cons]
        exact (ih _).cons_cons _
      · exact (ih prev).trans (by simp)

/-- Consecutive entries of `opsFlat` differ, and none has line number 0. -/
theorem opsFlat_differ (fid : ByteSlice → FileInfo → Nat) (comp : ByteSlice) (ls : List LineInfo)
    (hb : ∀ l ∈ ls, l.line < M32) :
    ∀ prev, (∀ t ∈ lineEntries (opsFlat fid comp ls prev), t.2.1 ≠ 0) ∧
      Adj (fun x y : Nat × Nat × Nat => x.2 ≠ y.2) (lineEntries (opsFlat fid comp ls prev)) ∧
      ∀ t, (lineEntries (opsFlat fid comp ls prev)).head? = some t → prev ≠ some t.2 := by
  induction ls with
  | nil => intro prev; simp [opsFlat, lineEntries, Adj]
  | cons l ls ih =>
    intro prev
    have ih := ih (fun x hx => hb x (by simp [hx]))
    unfold opsFlat
    by_cases h0 : l.line = 0
    · rw [if_pos h0]; exact ih prev
    · rw [if_neg h0]
      by_cases hp : prev = some (l.line, fid comp l.file)
      · rw [if_neg (by simpa using hp)]; exact ih prev
      · rw [if_pos hp]
        have hl : u32 l.line = l.line := u32_of_lt (hb l (by simp))
        obtain ⟨i1, i2, i3⟩ := ih (some (l.line, fid comp l.file))
        have e : lineEntries (LOp.line (u32 l.address) (u32 l.line) (fid comp l.file) ::
            opsFlat fid comp ls (some (l.line, fid comp l.file))) =
          (u32 l.address, l.line, fid comp l.file) :: lineEntries (opsFlat fid comp ls (some (l.line, fid comp l.file))) := by
          rw [hl]; rfl
        rw [e]
        refine ⟨?_, ?_, ?_⟩
        · intro t ht
          rcases List.mem_cons.mp ht with rfl | ht
          · exact h0
          · exact i1 t ht
        · generalize lineEntries (opsFlat fid comp ls (some (l.line, fid comp l.file))) = es at *
          cases es with
          | nil => trivial
          | cons t es =>
            refine ⟨?_, i2⟩
            have := i3 t rfl
            intro h
            exact this (by rw [← h])
        · intro t ht
          simp only [List.head?_cons, Option.some.injEq] at ht
          subst ht
          exact hp

theorem foldl_addNew {α : Type} [BEq α] [LawfulBEq α] [DecidableEq α] (u : List α) : ∀ (l : List α), l.Nodup →
    l <+: u.foldl addNew l ∧ (u.foldl addNew l).Nodup ∧ ∀ x ∈ u, x ∈ u.foldl addNew l := by
  induction u with
  | nil => intro l h; exact ⟨List.prefix_refl _, h, by simp⟩
  | cons a u ih =>
    intro l h
    obtain ⟨h1, h2, h3⟩ := ih (addNew l a) (addNew_nodup h a)
    refine ⟨(addNew_prefix l a).trans h1, h2, ?_⟩
    intro x hx
    rcases List.mem_cons.mp hx with rfl | hx
    · exact h1.subset (mem_addNew_self ..)
    · exact h3 x hx

/-- Positions of distinct elements. -/
theorem idxOf_eq_iff {α : Type} [BEq α] [LawfulBEq α] {l : List α} (h : l.Nodup) {a : α} {i : Nat} (hi : i < l.length) :
    i = l.idxOf a ↔ l[i]? = some a := by
  constructor
  · rintro rfl
    exact getElem?_idxOf (List.idxOf_lt_length_iff.mp hi)
  · intro hg
    rw [List.getElem?_eq_getElem hi] at hg
    have := List.Nodup.idxOf_getElem h i hi
    simp only [Option.some.injEq] at hg
    rw [hg] at this
    exact this.symm

end DumpSyms
