import Verif.Proof.InlineWalk
/-!
# Line and INLINE records of a well-formed function tree
-/
namespace DumpSyms
open Collector

theorem disjoint_ranges {rs : List IRange64} (hs : rs.Pairwise fun r r' => r.start ≤ r'.start)
    (hd : rs.Pairwise fun r r' => ∀ a, ¬ ((r.start ≤ a ∧ a < r.stop) ∧ (r'.start ≤ a ∧ a < r'.stop)))
    (hp : ∀ r ∈ rs, r.start < r.stop) : RangeOrd rs := by
  refine ⟨?_, hp⟩
  have := List.pairwise_and_iff.mpr ⟨hs, hd⟩
  refine List.Pairwise.imp_of_mem ?_ this
  intro r r' hr hr' ⟨h1, h2⟩
  have := h2 r'.start
  have := hp r' hr'
  have := hp r hr
  omega

theorem Func.WF.parts {f : Func} (h : f.WF) :
    (∀ l ∈ f.lines, l.address < l.stop ∧ l.stop < M32) ∧
    (f.lines.Pairwise fun l l' => l.stop ≤ l'.address) ∧
    (f.inlinees.Pairwise fun g g' => ∀ a, ¬ (g.Covers a ∧ g'.Covers a)) ∧
    (∀ g ∈ f.inlinees, ∀ l ∈ g.lines, ∃ l' ∈ f.lines, l'.address ≤ l.address ∧ l.stop ≤ l'.stop) ∧
    (∀ g ∈ f.inlinees, g.WF) := by
  cases h with
  | mk _ a b c d e => exact ⟨a, b, c, d, e⟩

/-- The ranges of the direct inlinees of `f`. -/
def ownRanges (oid : Name → Nat) (f : Func) : List IRange64 :=
  f.inlinees.flatMap fun g => inlineeRanges g (oid g.name)

theorem mem_ownRanges {oid : Name → Nat} {f : Func} {r : IRange64} (h : f.WF) :
    r ∈ ownRanges oid f ↔ ∃ g ∈ f.inlinees, ∃ l ∈ g.lines, r = ⟨l.address, l.stop, oid g.name⟩ := by
  unfold ownRanges inlineeRanges
  simp only [List.mem_flatMap, List.mem_map]
  constructor
  · rintro ⟨g, hg, l, hl, rfl⟩
    exact ⟨g, hg, l, hl, by rw [endAddr_eq ((h.parts.2.2.2.2 g hg).parts.1 l hl).2]⟩
  · rintro ⟨g, hg, l, hl, rfl⟩
    exact ⟨g, hg, l, hl, by rw [endAddr_eq ((h.parts.2.2.2.2 g hg).parts.1 l hl).2]⟩

theorem ownRanges_ord {us : List IRange64 → List IRange64} (hus : SortsByStart us) (oid : Name → Nat) {f : Func}
    (h : f.WF) : RangeOrd (us (ownRanges oid f)) := by
  obtain ⟨hperm, hsort⟩ := hus (ownRanges oid f)
  apply disjoint_ranges hsort
  · rw [hperm.pairwise_iff]
    · unfold ownRanges
      have hdis := h.parts.2.2.1
      have hrec := h.parts.2.2.2.2
      revert hdis hrec
      generalize f.inlinees = gs
      intro hdis hrec
      induction gs with
      | nil => simp
      | cons g gs ih =>
        obtain ⟨h1, h2⟩ := List.pairwise_cons.mp hdis
        have hend : ∀ g' ∈ g :: gs, ∀ l ∈ g'.lines, l.endAddr = l.stop := fun g' hg' l hl =>
          endAddr_eq ((hrec g' hg').parts.1 l hl).2
        rw [List.flatMap_cons, List.pairwise_append]
        refine ⟨?_, ih h2 (fun g' hg' => hrec g' (by simp [hg'])), ?_⟩
        · unfold inlineeRanges
          rw [List.pairwise_map]
          refine List.Pairwise.imp_of_mem ?_ (hrec g (by simp)).parts.2.1
          intro l l' hl hl' hle a
          simp only [hend g (by simp) l hl, hend g (by simp) l' hl']
          omega
        · intro r hr r' hr' a hcov
          rw [List.mem_flatMap] at hr'
          obtain ⟨g', hg', hr'⟩ := hr'
          unfold inlineeRanges at hr hr'
          rw [List.mem_map] at hr hr'
          obtain ⟨l, hl, rfl⟩ := hr
          obtain ⟨l', hl', rfl⟩ := hr'
          simp only [hend g (by simp) l hl, hend g' (by simp [hg']) l' hl'] at hcov
          exact h1 g' hg' a ⟨⟨l, hl, hcov.1⟩, ⟨l', hl', hcov.2⟩⟩
    · intro r r' h a hc
      exact h a ⟨hc.2, hc.1⟩
  · intro r hr
    obtain ⟨g, hg, l, hl, rfl⟩ := (mem_ownRanges h).mp (hperm.mem_iff.mp hr)
    exact ((h.parts.2.2.2.2 g hg).parts.1 l hl).1

/-- Facts about the events of a well-formed function. -/
structure OwnEvents (oid : Name → Nat) (fid : ByteSlice → FileInfo → Nat) (f : Func) (evs : List Ev) : Prop where
  ord : EvOrd evs
  inLine : ∀ e ∈ evs, ∃ l ∈ f.lines, l.address ≤ e.start ∧ e.stop ≤ l.stop ∧ e.info = (u32 l.line, fid f.comp l.file)
  cover : ∀ l ∈ f.lines, ∀ x, l.Covers x → ∃ e ∈ evs, e.Covers x
  calls : ∀ r, (∃ n fl, Ev.call r n fl ∈ evs) ↔ r ∈ ownRanges oid f

theorem ownEvents {us : List IRange64 → List IRange64} (hus : SortsByStart us) (oid : Name → Nat)
    (fid : ByteSlice → FileInfo → Nat) {f : Func} (h : f.WF) :
    OwnEvents oid fid f (evLines fid f.comp f.lines 0 (us (ownRanges oid f))) := by
  obtain ⟨hpos, hsort, hdis, hnest, hrec⟩ := h.parts
  have hmem : ∀ r, r ∈ us (ownRanges oid f) ↔ r ∈ ownRanges oid f := fun r => (hus _).1.mem_iff
  obtain ⟨h1, h2, h3, h4⟩ := evLines_spec fid f.comp f.lines 0 (us (ownRanges oid f)) hpos hsort (by simp)
    (ownRanges_ord hus oid h) (by
      intro r hr
      obtain ⟨g, hg, l, hl, rfl⟩ := (mem_ownRanges h).mp ((hmem r).mp hr)
      exact hnest g hg l hl)
  exact ⟨h1, h2, h3, fun r => (h4 r).trans (hmem r)⟩

theorem line_unique {f : Func} (h : f.WF) {l l' : LineInfo} (hl : l ∈ f.lines) (hl' : l' ∈ f.lines) {a : Nat}
    (ha : l.Covers a) (ha' : l'.Covers a) : l = l' := by
  have hs := h.parts.2.1
  revert hs hl hl'
  generalize f.lines = ls
  intro hl hl' hs
  induction ls with
  | nil => simp at hl
  | cons x ls ih =>
    obtain ⟨a1, a2⟩ := List.pairwise_cons.mp hs
    unfold LineInfo.Covers at ha ha'
    rcases List.mem_cons.mp hl with e | e
    · rcases List.mem_cons.mp hl' with e' | e'
      · exact e.trans e'.symm
      · have := a1 l' e'; rw [← e] at this; omega
    · rcases List.mem_cons.mp hl' with e' | e'
      · have := a1 l e; rw [← e'] at this; omega
      · exact ih e e' a2

theorem pairwise_mem_ne {α : Type} {R : α → α → Prop} (hsym : ∀ a b, R a b → R b a) {l : List α} (h : l.Pairwise R)
    {a b : α} (ha : a ∈ l) (hb : b ∈ l) (hne : a ≠ b) : R a b := by
  induction l with
  | nil => simp at ha
  | cons x l ih =>
    obtain ⟨h1, h2⟩ := List.pairwise_cons.mp h
    rcases List.mem_cons.mp ha with e | e
    · rcases List.mem_cons.mp hb with e' | e'
      · exact absurd (e.trans e'.symm) hne
      · rw [e]; exact h1 b e'
    · rcases List.mem_cons.mp hb with e' | e'
      · rw [e']; exact hsym _ _ (h1 a e)
      · exact ih h2 e e'

theorem inlinee_unique {f : Func} (h : f.WF) {g g' : Func} (hg : g ∈ f.inlinees) (hg' : g' ∈ f.inlinees) {a : Nat}
    (ha : g.Covers a) (ha' : g'.Covers a) : g = g' := by
  apply Classical.byContradiction
  intro hne
  exact pairwise_mem_ne (R := fun g g' => ∀ a, ¬ (g.Covers a ∧ g'.Covers a))
    (fun g g' h a hc => h a ⟨hc.2, hc.1⟩) h.parts.2.2.1 hg hg' hne a ⟨ha, ha'⟩

theorem covers_of_inlinee {f : Func} (h : f.WF) {g : Func} (hg : g ∈ f.inlinees) {a : Nat} (ha : g.Covers a) : f.Covers a := by
  obtain ⟨l, hl, ha⟩ := ha
  obtain ⟨l', hl', h1, h2⟩ := h.parts.2.2.2.1 g hg l hl
  unfold LineInfo.Covers at ha
  exact ⟨l', hl', ⟨by omega, by omega⟩⟩

theorem covers_lt {f : Func} (h : f.WF) {a : Nat} (ha : f.Covers a) : a < M32 := by
  obtain ⟨l, hl, ha⟩ := ha
  have := h.parts.1 l hl
  unfold LineInfo.Covers at ha
  omega

/-- Is an own-code event free of inlined code? -/
theorem OwnEvents.self_free {oid : Name → Nat} {fid : ByteSlice → FileInfo → Nat} {f : Func} {evs : List Ev}
    (hw : f.WF) (h : OwnEvents oid fid f evs) {s t n fl : Nat} (he : Ev.self s t n fl ∈ evs) {x : Nat} (hx1 : s ≤ x) (hx2 : x < t) :
    ∀ g ∈ f.inlinees, ¬ g.Covers x := by
  rintro g hg ⟨l, hl, hc⟩
  obtain ⟨n', fl', hcall⟩ := (h.calls ⟨l.address, l.stop, oid g.name⟩).mpr ((mem_ownRanges hw).mpr ⟨g, hg, l, hl, rfl⟩)
  have hc1 : l.address ≤ x := hc.1
  have hc2 : x < l.stop := hc.2
  rcases mem_evord h.ord he hcall with h | h | h
  · simp at h
  · simp at h; omega
  · simp at h; omega

/-- Own-code events lie in the function. -/
theorem OwnEvents.self_covers {oid : Name → Nat} {fid : ByteSlice → FileInfo → Nat} {f : Func} {evs : List Ev}
    (h : OwnEvents oid fid f evs) {e : Ev} (he : e ∈ evs) {x : Nat} (hx : e.Covers x) : f.Covers x := by
  obtain ⟨l, hl, h1, h2, _⟩ := h.inLine e he
  unfold Ev.Covers at hx
  exact ⟨l, hl, ⟨by omega, by omega⟩⟩

/-- `NoGap` with file ids instead of paths. -/
def Func.NoGapId (fid : ByteSlice → FileInfo → Nat) (f : Func) : Prop :=
  Adj (fun l l' => u32 l.line = u32 l'.line ∧ fid f.comp l.file = fid f.comp l'.file → l.stop = l'.address) f.lines

inductive Func.InlineesNoGapId (fid : ByteSlice → FileInfo → Nat) : Func → Prop where
  | mk (f : Func) (h : ∀ g ∈ f.inlinees, g.NoGapId fid) (rec : ∀ g ∈ f.inlinees, Func.InlineesNoGapId fid g) :
      Func.InlineesNoGapId fid f

theorem Func.InlineesNoGapId.parts {fid : ByteSlice → FileInfo → Nat} {f : Func} (h : f.InlineesNoGapId fid) :
    (∀ g ∈ f.inlinees, g.NoGapId fid) ∧ ∀ g ∈ f.inlinees, g.InlineesNoGapId fid := by
  cases h with
  | mk _ a b => exact ⟨a, b⟩

/-- A run of line entries with the same key has no gap. -/
theorem run_covers (K : LineInfo → Nat × Nat) (k : Nat × Nat) (ls : List LineInfo)
    (hadj : Adj (fun l l' => K l = K l' → l.stop = l'.address) ls)
    (hsort : ls.Pairwise fun l l' => l.stop ≤ l'.address) (hpos : ∀ l ∈ ls, l.address < l.stop)
    {l0 la : LineInfo} (h0 : l0 ∈ ls) (ha : la ∈ ls)
    (hk : ∀ l ∈ ls, l0.address ≤ l.address → l.address ≤ la.address → K l = k)
    {x : Nat} (hx1 : l0.address ≤ x) (hx2 : x < la.stop) : ∃ l ∈ ls, l.Covers x := by
  induction ls generalizing l0 with
  | nil => simp at h0
  | cons l ls ih =>
    obtain ⟨hafter, hsort'⟩ := List.pairwise_cons.mp hsort
    have hadj' : Adj (fun l l' => K l = K l' → l.stop = l'.address) ls := by
      cases ls with
      | nil => trivial
      | cons b ls => exact hadj.2
    have hl := hpos l (by simp)
    by_cases hxl : l.Covers x
    · exact ⟨l, by simp, hxl⟩
    · have hne : la ≠ l := by
        rintro rfl
        rcases List.mem_cons.mp h0 with rfl | h0
        · exact hxl ⟨hx1, hx2⟩
        · have := hafter l0 h0; omega
      have ha' : la ∈ ls := (List.mem_cons.mp ha).resolve_left hne
      have key : ∀ l0 ∈ ls, (∀ l ∈ ls, l0.address ≤ l.address → l.address ≤ la.address → K l = k) → l0.address ≤ x →
          ∃ m ∈ l :: ls, m.Covers x := by
        intro l0 h0 hk hx1
        obtain ⟨l', hl', h⟩ := ih hadj' hsort' (fun l hl => hpos l (by simp [hl])) h0 ha' hk hx1
        exact ⟨l', by simp [hl'], h⟩
      rcases List.mem_cons.mp h0 with rfl | h0
      · cases ls with
        | nil => simp at ha'
        | cons l1 ls =>
          have hle : l1.address ≤ la.address := by
            rcases List.mem_cons.mp ha' with rfl | h
            · exact Nat.le_refl _
            · have h1 := (List.pairwise_cons.mp hsort').1 la h
              have h2 := hpos l1 (by simp)
              omega
          have h1 := hafter l1 (by simp)
          have heq : l0.stop = l1.address := hadj.1 (by
            rw [hk l0 (by simp) (Nat.le_refl _) (by omega), hk l1 (by simp) (by omega) hle])
          have hx : l1.address ≤ x := by
            unfold LineInfo.Covers at hxl; omega
          refine key l1 (by simp) ?_ hx
          intro l' hl' b1 b2
          exact hk l' (by simp [List.mem_cons.mp hl']) (by omega) b2
      · exact key l0 h0 (fun l' hl' b1 b2 => hk l' (by simp [hl']) b1 b2) hx1

/-- The claim about the line records of a function tree. -/
structure LineClaim (fid : ByteSlice → FileInfo → Nat) (f : Func) (ops : List LOp) : Prop where
  /-- Records start in the function. -/
  starts : ∀ s n fl, LOp.line s n fl ∈ ops → f.Covers s
  /-- Every address is under a record of its innermost line, with no other record in between. -/
  found : ∀ a l c, Innermost f a l c → ∃ s, s ≤ a ∧ LOp.line s (u32 l.line) (fid c l.file) ∈ ops ∧
    (∀ s' n' fl', LOp.line s' n' fl' ∈ ops → s ≤ s' → s' ≤ a → n' = u32 l.line ∧ fl' = fid c l.file) ∧
    (f.NoGapId fid → ∀ x, s ≤ x → x ≤ a → f.Covers x)

theorem opsInl_mem {us : List IRange64 → List IRange64} {fid : ByteSlice → FileInfo → Nat} {oid : Name → Nat}
    {depth : Nat} {gs : List Func} {op : LOp} :
    op ∈ opsInl us fid oid depth gs ↔ ∃ g ∈ gs, g.lines ≠ [] ∧ op ∈ opsRec us fid oid (depth + 1) g := by
  induction gs with
  | nil => simp [opsInl]
  | cons g gs ih =>
    rw [opsInl, List.mem_append, ih]
    constructor
    · rintro (h | ⟨g', hg', h⟩)
      · by_cases hl : g.lines = []
        · simp [hl] at h
        · rw [if_neg hl] at h; exact ⟨g, by simp, hl, h⟩
      · exact ⟨g', by simp [hg'], h⟩
    · rintro ⟨g', hg', hl, h⟩
      rcases List.mem_cons.mp hg' with rfl | hg'
      · rw [if_neg hl]; exact .inl h
      · exact .inr ⟨g', hg', hl, h⟩

theorem opsRec_eq (us : List IRange64 → List IRange64) (fid : ByteSlice → FileInfo → Nat) (oid : Name → Nat)
    (depth : Nat) (f : Func) : opsRec us fid oid depth f = opsInl us fid oid depth f.inlinees ++
      emit depth (evLines fid f.comp f.lines 0 (us (ownRanges oid f))) none := by
  cases f with
  | mk a s n c ls is => rw [opsRec]; rfl

theorem lineClaim {us : List IRange64 → List IRange64} (hus : SortsByStart us) (fid : ByteSlice → FileInfo → Nat)
    (oid : Name → Nat) {f : Func} (h : f.WF) :
    ∀ depth, f.InlineesNoGapId fid → LineClaim fid f (opsRec us fid oid depth f) := by
  induction h with
  | mk f pos sorted disjoint nested rec ih =>
    intro depth hgap
    have hw : f.WF := .mk f pos sorted disjoint nested rec
    have hown := ownEvents hus oid fid hw
    rw [opsRec_eq]
    generalize evLines fid f.comp f.lines 0 (us (ownRanges oid f)) = evs at hown
    have hin : ∀ s n fl, LOp.line s n fl ∈ opsInl us fid oid depth f.inlinees ++ emit depth evs none →
        (∃ g ∈ f.inlinees, LOp.line s n fl ∈ opsRec us fid oid (depth + 1) g ∧ g.Covers s) ∨
        (∃ t, Ev.self s t n fl ∈ evs ∧ s < t) := by
      intro s n fl hs
      rcases List.mem_append.mp hs with hs | hs
      · obtain ⟨g, hg, hl, hm⟩ := opsInl_mem.mp hs
        exact .inl ⟨g, hg, hm, (ih g hg (depth + 1) (hgap.parts.2 g hg)).starts s n fl hm⟩
      · obtain ⟨s0, t, he, rfl⟩ := emit_line_mem hs
        have hpos := hown.ord.2 _ he
        simp only [Ev.start_self, Ev.stop_self] at hpos
        have hcov := hown.self_covers he (x := s0) ⟨Nat.le_refl _, hpos⟩
        rw [u32_of_lt (covers_lt hw hcov)]
        exact .inr ⟨t, he, hpos⟩
    refine ⟨?_, ?_⟩
    · intro s n fl hs
      rcases hin s n fl hs with ⟨g, hg, _, hc⟩ | ⟨t, he, ht⟩
      · exact covers_of_inlinee hw hg hc
      · exact hown.self_covers he ⟨Nat.le_refl _, ht⟩
    · intro a l c hinn
      cases hinn with
      | self _ _ _ hl ha hn =>
        obtain ⟨e, he, hc⟩ := hown.cover l hl a ha
        cases e with
        | call r n fl =>
          obtain ⟨g, hg, m, hm, rfl⟩ := (mem_ownRanges hw).mp ((hown.calls r).mp ⟨n, fl, he⟩)
          exact absurd ⟨m, hm, hc⟩ (hn g hg)
        | self s0 t n fl =>
          have hc1 : s0 ≤ a := hc.1
          have hc2 : a < t := hc.2
          obtain ⟨l1, hl1, b1, b2, b3⟩ := hown.inLine _ he
          simp only [Ev.start_self, Ev.stop_self, Ev.info_self, Prod.mk.injEq] at b1 b2 b3
          have : l1 = l := line_unique hw hl1 hl (a := a) ⟨by omega, by omega⟩ ha
          subst this
          obtain ⟨rfl, rfl⟩ := b3
          rcases emit_self_spec (depth := depth) (prev := none) hown.ord he with ⟨s1, t1, c1, c2, c3, c4⟩ | ⟨h, _⟩
          · have hp1 := hown.ord.2 _ c2
            simp only [Ev.start_self, Ev.stop_self] at hp1
            have hcov1 := hown.self_covers c2 (x := s1) ⟨Nat.le_refl _, hp1⟩
            rw [u32_of_lt (covers_lt hw hcov1)] at c3
            -- every event starting in [s1, a] starts in [s1, s0]
            have hstart : ∀ e ∈ evs, s1 ≤ e.start → e.start ≤ a →
                ∃ s t, e = .self s t (u32 l1.line) (fid f.comp l1.file) := by
              intro e' he' d1 d2
              refine c4 e' he' d1 ?_
              rcases mem_evord hown.ord he he' with h | h | h
              · rw [← h]; exact Nat.le_refl _
              · simp at h; omega
              · have := hown.ord.2 e' he'
                simp at h; omega
            refine ⟨s1, by omega, List.mem_append.mpr (.inr c3), ?_, ?_⟩
            · intro s' n' fl' hm d1 d2
              rcases hin s' n' fl' hm with ⟨g, hg, _, m, hmm, hmc⟩ | ⟨t', he', _⟩
              · -- a record of an inlinee inside: its call event would start inside
                exfalso
                obtain ⟨n2, fl2, hcall⟩ :=
                  (hown.calls ⟨m.address, m.stop, oid g.name⟩).mpr ((mem_ownRanges hw).mpr ⟨g, hg, m, hmm, rfl⟩)
                have m1 : m.address ≤ s' := hmc.1
                have m2 : s' < m.stop := hmc.2
                rcases mem_evord hown.ord c2 hcall with h | h | h
                · simp at h
                · simp at h
                  obtain ⟨_, _, hh⟩ := hstart _ hcall (by simp; omega) (by simp; omega)
                  simp at hh
                · simp at h; omega
              · obtain ⟨_, _, hh⟩ := hstart _ he' d1 d2
                simp only [Ev.self.injEq] at hh
                exact ⟨hh.2.2.1, hh.2.2.2⟩
            · intro hng x d1 d2
              obtain ⟨l0, hl0, e1, e2, e3⟩ := hown.inLine _ c2
              simp only [Ev.start_self, Ev.stop_self, Ev.info_self, Prod.mk.injEq] at e1 e2 e3
              apply run_covers (fun l => (u32 l.line, fid f.comp l.file)) (u32 l1.line, fid f.comp l1.file) f.lines
                ?_ sorted (fun l hl => (pos l hl).1) hl0 hl ?_ (x := x) (by omega) (by omega)
              · have hng' : Adj _ f.lines := hng
                refine Adj.imp ?_ hng'
                intro p q hpq h
                exact hpq (by simpa using h)
              · intro p hp f1 f2
                by_cases hps : s1 ≤ p.address
                · have hpp := pos p hp
                  obtain ⟨e', he', g1, g2⟩ := hown.cover p hp p.address ⟨Nat.le_refl _, hpp.1⟩
                  obtain ⟨q, hq, q1, q2, q3⟩ := hown.inLine e' he'
                  have : q = p := line_unique hw hq hp (a := p.address) ⟨by omega, by omega⟩ ⟨Nat.le_refl _, hpp.1⟩
                  subst this
                  have ha1 : l1.address ≤ a := ha.1
                  obtain ⟨_, _, hh⟩ := hstart e' he' (by omega) (by omega)
                  rw [hh] at q3
                  exact q3.symm
                · have : p = l0 := line_unique hw hp hl0 (a := p.address) ⟨Nat.le_refl _, (pos p hp).1⟩
                    ⟨by omega, by omega⟩
                  subst this
                  simp only [Prod.mk.injEq]
                  exact ⟨e3.1.symm, e3.2.symm⟩
          · simp at h
      | inl _ g _ _ _ hg ha hi =>
        obtain ⟨s, h1, h2, h3, h4⟩ := (ih g hg (depth + 1) (hgap.parts.2 g hg)).found a l c hi
        have hcov := h4 (hgap.parts.1 g hg)
        have hgl : g.lines ≠ [] := by
          obtain ⟨m, hm, _⟩ := ha
          intro he; rw [he] at hm; simp at hm
        refine ⟨s, h1, List.mem_append.mpr (.inl (opsInl_mem.mpr ⟨g, hg, hgl, h2⟩)), ?_, ?_⟩
        · intro s' n' fl' hm d1 d2
          have hgs := hcov s' d1 d2
          rcases hin s' n' fl' hm with ⟨g', hg', hm', hc'⟩ | ⟨t', he', ht'⟩
          · have : g' = g := inlinee_unique hw hg' hg hc' hgs
            subst this
            exact h3 s' n' fl' hm' d1 d2
          · exact absurd hgs (hown.self_free hw he' (Nat.le_refl _) ht' g hg)
        · intro _ x d1 d2
          exact covers_of_inlinee hw hg (hcov x d1 d2)

/-- The range recorded for an inlined range. -/
theorem inlineOp_range {depth n fl : Nat} {r : IRange64} {site : InlineSite} {q : IRange} (h1 : r.start < r.stop)
    (h2 : r.stop < M32) (h : LOp.inl site q = inlineOp depth n fl r) :
    q = ⟨r.start, r.stop - r.start⟩ ∧ site = ⟨r.origin, depth, n, fl⟩ := by
  unfold inlineOp at h
  simp only [LOp.inl.injEq] at h
  obtain ⟨rfl, rfl⟩ := h
  have e : wsub64 r.stop r.start = r.stop - r.start := by
    unfold wsub64
    have : M32 < M64 := by decide
    rw [show r.stop + M64 - r.start = (r.stop - r.start) + M64 by omega, Nat.add_mod_right]
    exact Nat.mod_eq_of_lt (by omega)
  rw [e, u32_of_lt (by omega), u32_of_lt (by omega)]
  exact ⟨rfl, rfl⟩

/-- The own calls of a well-formed function. -/
theorem ownCalls {oid : Name → Nat} {fid : ByteSlice → FileInfo → Nat} {f : Func} {evs : List Ev} (hw : f.WF)
    (hown : OwnEvents oid fid f evs) {depth : Nat} {prev : Option (Nat × Nat)} {site : InlineSite} {q : IRange} :
    LOp.inl site q ∈ emit depth evs prev ↔
      ∃ g ∈ f.inlinees, ∃ m ∈ g.lines, ∃ l ∈ f.lines, l.address ≤ m.address ∧ m.stop ≤ l.stop ∧
        q = ⟨m.address, m.stop - m.address⟩ ∧ site = ⟨oid g.name, depth, u32 l.line, fid f.comp l.file⟩ := by
  rw [emit_inl_mem]
  constructor
  · rintro ⟨r, n, fl, he, hop⟩
    obtain ⟨g, hg, m, hm, rfl⟩ := (mem_ownRanges hw).mp ((hown.calls r).mp ⟨n, fl, he⟩)
    obtain ⟨l, hl, h1, h2, h3⟩ := hown.inLine _ he
    have hp := (hw.parts.2.2.2.2 g hg).parts.1 m hm
    obtain ⟨hq, hs⟩ := inlineOp_range hp.1 hp.2 hop
    simp only [Ev.info_call, Prod.mk.injEq] at h3
    obtain ⟨rfl, rfl⟩ := h3
    exact ⟨g, hg, m, hm, l, hl, h1, h2, hq, hs⟩
  · rintro ⟨g, hg, m, hm, l, hl, h1, h2, rfl, rfl⟩
    obtain ⟨n, fl, he⟩ := (hown.calls ⟨m.address, m.stop, oid g.name⟩).mpr ((mem_ownRanges hw).mpr ⟨g, hg, m, hm, rfl⟩)
    obtain ⟨l', hl', e1, e2, e3⟩ := hown.inLine _ he
    have hp := (hw.parts.2.2.2.2 g hg).parts.1 m hm
    simp only [Ev.start_call, Ev.stop_call] at e1 e2
    have : l' = l := line_unique hw hl' hl (a := m.address) ⟨e1, by omega⟩ ⟨h1, by omega⟩
    subst this
    simp only [Ev.info_call, Prod.mk.injEq] at e3
    obtain ⟨rfl, rfl⟩ := e3
    refine ⟨_, _, _, he, ?_⟩
    unfold inlineOp
    simp only [LOp.inl.injEq, IRange.mk.injEq, true_and]
    have e : wsub64 m.stop m.address = m.stop - m.address := by
      unfold wsub64
      have : M32 < M64 := by decide
      rw [show m.stop + M64 - m.address = (m.stop - m.address) + M64 by omega, Nat.add_mod_right]
      exact Nat.mod_eq_of_lt (by omega)
    rw [e, u32_of_lt (by omega), u32_of_lt (by omega)]
    exact ⟨rfl, rfl⟩

/-- Inline ranges lie in the function and end below 2^32. -/
theorem inl_inside {us : List IRange64 → List IRange64} (hus : SortsByStart us) (fid : ByteSlice → FileInfo → Nat)
    (oid : Name → Nat) {f : Func} (h : f.WF) :
    ∀ depth site q, LOp.inl site q ∈ opsRec us fid oid depth f →
      q.rva + q.len < M32 ∧ depth ≤ site.depth ∧ ∀ a, q.Covers a → f.Covers a := by
  induction h with
  | mk f pos sorted disjoint nested rec ih =>
    intro depth site q hq
    have hw : f.WF := .mk f pos sorted disjoint nested rec
    have hown := ownEvents hus oid fid hw
    rw [opsRec_eq] at hq
    rcases List.mem_append.mp hq with hq | hq
    · obtain ⟨g, hg, hl, hm⟩ := opsInl_mem.mp hq
      obtain ⟨h1, h2, h3⟩ := ih g hg (depth + 1) site q hm
      exact ⟨h1, by omega, fun a ha => covers_of_inlinee hw hg (h3 a ha)⟩
    · obtain ⟨g, hg, m, hm, l, hl, h1, h2, rfl, rfl⟩ := (ownCalls hw hown).mp hq
      have hp := (rec g hg).parts.1 m hm
      refine ⟨by simp only; omega, Nat.le_refl _, ?_⟩
      intro a ha
      unfold IRange.Covers at ha
      simp only at ha
      exact ⟨l, hl, ⟨by omega, by omega⟩⟩

/-- The call sites recorded for an address are those of its chain. -/
theorem inlClaim {us : List IRange64 → List IRange64} (hus : SortsByStart us) (fid : ByteSlice → FileInfo → Nat)
    (oid : Name → Nat) {f : Func} (h : f.WF) :
    ∀ depth a cs, Chain f a cs → ∀ site,
      (∃ q, LOp.inl site q ∈ opsRec us fid oid depth f ∧ q.Covers a) ↔
      ∃ k step, cs[k]? = some step ∧
        site = ⟨oid step.callee, depth + k, u32 step.callLine.line, fid step.callerDir step.callLine.file⟩ := by
  induction h with
  | mk f pos sorted disjoint nested rec ih =>
    intro depth a cs hch site
    have hw : f.WF := .mk f pos sorted disjoint nested rec
    have hown := ownEvents hus oid fid hw
    have hcovq : ∀ m : LineInfo, m.address < m.stop →
        ((⟨m.address, m.stop - m.address⟩ : IRange).Covers a ↔ m.Covers a) := by
      intro m hm
      unfold IRange.Covers LineInfo.Covers
      simp only
      omega
    rw [opsRec_eq]
    cases hch with
    | nil _ _ hn =>
      simp only [List.getElem?_nil, reduceCtorEq, false_and, exists_false, iff_false]
      rintro ⟨q, hq, hc⟩
      rcases List.mem_append.mp hq with hq | hq
      · obtain ⟨g, hg, hl, hm⟩ := opsInl_mem.mp hq
        exact hn g hg ((inl_inside hus fid oid (rec g hg) _ _ _ hm).2.2 a hc)
      · obtain ⟨g, hg, m, hm, l, hl, h1, h2, rfl, rfl⟩ := (ownCalls hw hown).mp hq
        exact hn g hg ⟨m, hm, (hcovq m ((rec g hg).parts.1 m hm).1).mp hc⟩
    | cons _ g _ l cs hl ha hg hga hc =>
      have ihg := ih g hg (depth + 1) a cs hc site
      have hgl : g.lines ≠ [] := by
        obtain ⟨m, hm, _⟩ := hga
        intro he; rw [he] at hm; simp at hm
      constructor
      · rintro ⟨q, hq, hcq⟩
        rcases List.mem_append.mp hq with hq | hq
        · obtain ⟨g', hg', hl', hm⟩ := opsInl_mem.mp hq
          have hc' := (inl_inside hus fid oid (rec g' hg') _ _ _ hm).2.2 a hcq
          have : g' = g := inlinee_unique hw hg' hg hc' hga
          subst this
          obtain ⟨k, step, hk, hs⟩ := ihg.mp ⟨q, hm, hcq⟩
          exact ⟨k + 1, step, by simpa using hk, by rw [hs, show depth + 1 + k = depth + (k + 1) by omega]⟩
        · obtain ⟨g', hg', m, hm, l', hl', h1, h2, rfl, rfl⟩ := (ownCalls hw hown).mp hq
          have hmc := (hcovq m ((rec g' hg').parts.1 m hm).1).mp hcq
          have : g' = g := inlinee_unique hw hg' hg ⟨m, hm, hmc⟩ hga
          subst this
          have : l' = l := line_unique hw hl' hl (a := a) ⟨Nat.le_trans h1 hmc.1, Nat.lt_of_lt_of_le hmc.2 h2⟩ ha
          subst this
          exact ⟨0, _, rfl, rfl⟩
      · rintro ⟨k, step, hk, hs⟩
        cases k with
        | zero =>
          simp only [List.getElem?_cons_zero, Option.some.injEq] at hk
          subst hk
          obtain ⟨m, hm, hmc⟩ := hga
          obtain ⟨l', hl', h1, h2⟩ := nested g hg m hm
          have : l' = l := line_unique hw hl' hl (a := a) ⟨Nat.le_trans h1 hmc.1, Nat.lt_of_lt_of_le hmc.2 h2⟩ ha
          subst this
          exact ⟨_, List.mem_append.mpr (.inr ((ownCalls hw hown).mpr ⟨g, hg, m, hm, l', hl', h1, h2, rfl, hs⟩)),
            (hcovq m ((rec g hg).parts.1 m hm).1).mpr hmc⟩
        | succ k =>
          obtain ⟨q, hq, hcq⟩ := ihg.mpr ⟨k, step, by simpa using hk,
            by rw [hs, show depth + 1 + k = depth + (k + 1) by omega]⟩
          exact ⟨q, List.mem_append.mpr (.inl (opsInl_mem.mpr ⟨g, hg, hgl, hq⟩)), hcq⟩

/-- Every address has a chain, and every covered address an innermost line. -/
theorem chain_exists {f : Func} (h : f.WF) (a : Nat) : ∃ cs, Chain f a cs := by
  induction h with
  | mk f pos sorted disjoint nested rec ih =>
    have hw : f.WF := .mk f pos sorted disjoint nested rec
    by_cases hn : ∀ g ∈ f.inlinees, ¬ g.Covers a
    · exact ⟨[], .nil f a hn⟩
    · obtain ⟨g, hg⟩ := Classical.not_forall.mp hn
      obtain ⟨hg, hc⟩ := Classical.not_imp.mp hg
      have hc := Classical.not_not.mp hc
      obtain ⟨cs, hcs⟩ := ih g hg
      obtain ⟨l, hl, ha⟩ := covers_of_inlinee hw hg hc
      exact ⟨_, .cons f g a l cs hl ha hg hc hcs⟩

theorem innermost_exists {f : Func} (h : f.WF) {a : Nat} (ha : f.Covers a) : ∃ l c, Innermost f a l c := by
  induction h with
  | mk f pos sorted disjoint nested rec ih =>
    by_cases hn : ∀ g ∈ f.inlinees, ¬ g.Covers a
    · obtain ⟨l, hl, hc⟩ := ha
      exact ⟨l, _, .self f a l hl hc hn⟩
    · obtain ⟨g, hg⟩ := Classical.not_forall.mp hn
      obtain ⟨hg, hc⟩ := Classical.not_imp.mp hg
      have hc := Classical.not_not.mp hc
      obtain ⟨l, c, hi⟩ := ih g hg hc
      exact ⟨l, c, .inl f g a l c hg hc hi⟩

end DumpSyms
