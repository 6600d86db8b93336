import Verif.Props.MergeReadable
import Verif.Props.MergeSamples
/-!
# C78: merging does not change what lookups find
-/
namespace DumpSyms
open Collector ObjectInfo Symbols Reader

namespace Reader

/-- Does the INLINE record stand for the address at the nesting depth? -/
def inlineHere (a d : Nat) (e : ReadInline) : Bool :=
  decide (e.depth = d) && e.ranges.any fun x => decide (x.rva ≤ a ∧ a < x.rva + x.len)

/-- The INLINE records of a symbol read from a file, with their ids looked up. -/
def SymFile.inlinesOf (f : SymFile) (r : RSym) : List ReadInline :=
  r.inlines.map fun e => ⟨e.1.depth, e.1.callLine, f.path e.1.callFile, f.origin e.1.originId, e.2⟩

/-- The line records of a symbol read from a file, with their ids looked up. -/
def SymFile.linesOf (f : SymFile) (r : RSym) : List ReadLine :=
  r.lines.map fun l => ⟨l.rva, l.len, l.num, f.path l.fileId⟩

theorem inlineAt_resolved (f : SymFile) (r : RSym) (a d : Nat) :
    ((r.inlineAt a d).map fun site => (f.path site.callFile, site.callLine, f.origin site.originId)) =
      (((f.inlinesOf r).filter (inlineHere a d)).head?).map fun e => (e.callPath, e.callLine, e.name) := by
  unfold RSym.inlineAt SymFile.inlinesOf
  rw [List.head?_filter, List.find?_map, Option.map_map, Option.map_map]
  rfl

theorem lookupLine_resolved (f : SymFile) (ls : List Line) (a : Nat) :
    ((lookupLine ls a).map fun x => (f.path x.2, x.1)) =
      ((ls.map fun l => (⟨l.rva, l.len, l.num, f.path l.fileId⟩ : ReadLine)).find?
        fun l => decide (l.rva ≤ a ∧ a < l.rva + l.len)).map fun l => (l.path, l.num) := by
  unfold lookupLine
  rw [List.find?_map, Option.map_map, Option.map_map]
  rfl

/-- The frames depend only on the records with their ids looked up. -/
theorem framesFrom_congr {f g : SymFile} {r s : RSym} {a : Nat}
    (hi : ∀ d, ((r.inlineAt a d).map fun site => (f.path site.callFile, site.callLine, f.origin site.originId)) =
      (s.inlineAt a d).map fun site => (g.path site.callFile, site.callLine, g.origin site.originId))
    (hl : ((lookupLine r.lines a).map fun x => (f.path x.2, x.1)) = (lookupLine s.lines a).map fun x => (g.path x.2, x.1))
    (fuel : Nat) : ∀ d fn, f.framesFrom r a fuel d fn = g.framesFrom s a fuel d fn := by
  induction fuel with
  | zero => intro d fn; rfl
  | succ fuel ih =>
    intro d fn
    unfold SymFile.framesFrom
    have h := hi d
    cases h1 : r.inlineAt a d with
    | none =>
      cases h2 : s.inlineAt a d with
      | some y => rw [h1, h2] at h; cases h
      | none =>
        simp only
        cases h3 : lookupLine r.lines a with
        | none =>
          cases h4 : lookupLine s.lines a with
          | none => rfl
          | some y => rw [h3, h4] at hl; cases hl
        | some x =>
          cases h4 : lookupLine s.lines a with
          | none => rw [h3, h4] at hl; cases hl
          | some y =>
            rw [h3, h4] at hl
            simp only [Option.map_some, Option.some.injEq, Prod.mk.injEq] at hl
            simp only [hl.1, hl.2]
    | some x =>
      cases h2 : s.inlineAt a d with
      | none => rw [h1, h2] at h; cases h
      | some y =>
        rw [h1, h2] at h
        simp only [Option.map_some, Option.some.injEq, Prod.mk.injEq] at h
        simp only [h.1, h.2.1, h.2.2, ih]

end Reader

theorem perm_short {α : Type} {l m : List α} (h : l.Perm m) (hl : l.length ≤ 1) : l = m := by
  rcases l with _ | ⟨x, _ | ⟨y, l⟩⟩
  · exact h.nil_eq
  · exact (List.perm_singleton.mp h.symm).symm
  · simp at hl

theorem clear_filter {r : RSym} {a : Nat} (h : r.ClearAt a) (f : SymFile) (d : Nat) :
    ((f.inlinesOf r).filter (inlineHere a d)).length ≤ 1 := by
  unfold SymFile.inlinesOf
  rw [List.filter_map, List.length_map]
  have hp := List.Pairwise.filter (inlineHere a d ∘ fun e : InlineSite × List IRange =>
    (⟨e.1.depth, e.1.callLine, f.path e.1.callFile, f.origin e.1.originId, e.2⟩ : ReadInline)) h
  generalize hq : r.inlines.filter _ = q at hp ⊢
  rcases q with _ | ⟨x, _ | ⟨y, q⟩⟩
  · simp
  · simp
  · exfalso
    have hx : x ∈ x :: y :: q := by simp
    have hy : y ∈ x :: y :: q := by simp
    rw [← hq] at hx hy
    have hx := (List.mem_filter.mp hx).2
    have hy := (List.mem_filter.mp hy).2
    simp only [Function.comp_def, inlineHere, Bool.and_eq_true, decide_eq_true_eq, List.any_eq_true] at hx hy
    refine (List.pairwise_cons.mp hp).1 y (by simp) ⟨hx.1.trans hy.1.symm, ?_, ?_⟩
    · exact hx.2
    · exact hy.2

/-- The frames at an address agree when the records agree up to order and the address is clear. -/
theorem frames_same {f g : SymFile} {r s : RSym} {a : Nat} (hn : r.name = s.name) (hc : r.ClearAt a)
    (hi : (f.inlinesOf r).Perm (g.inlinesOf s)) (hl : f.linesOf r = g.linesOf s) :
    f.framesFrom r a (r.inlines.length + 1) 0 r.name = g.framesFrom s a (s.inlines.length + 1) 0 s.name := by
  have hlen : r.inlines.length = s.inlines.length := by
    have := hi.length_eq
    simpa [SymFile.inlinesOf] using this
  rw [hn, hlen]
  apply framesFrom_congr
  · intro d
    rw [inlineAt_resolved, inlineAt_resolved, perm_short (hi.filter (inlineHere a d)) (clear_filter hc f d)]
  · rw [lookupLine_resolved, lookupLine_resolved]
    show Option.map _ (List.find? _ (f.linesOf r)) = Option.map _ (List.find? _ (g.linesOf s))
    rw [hl]

theorem inlinesOf_symOf {f : SymFile} {o : ObjectInfo} {s : Symbol} (hp : s.isPublic = false)
    (h1 : f.files = enumFrom 0 o.files.getMapping) (h2 : f.origins = (enumFrom 0 o.inlineOrigins).map fun e => (e.1, originText e.2)) :
    (f.inlinesOf (symOf s)).Perm ((s.readInlines o.files.getMapping o.inlineOrigins).map fun e => { e with name := e.name.map originText }) := by
  have hin : (symOf s).inlines.Perm s.source.inlines := by
    simp only [symOf, hp, Bool.false_eq_true, if_false]; exact isort_perm _ _
  unfold SymFile.inlinesOf Symbol.readInlines
  rw [List.map_map]
  refine (hin.map _).trans (List.Perm.of_eq ?_)
  apply List.map_congr_left
  intro e _
  simp only [Function.comp_def, path_read h1, origin_read h2]

theorem linesOf_symOf {f : SymFile} {o : ObjectInfo} {s : Symbol} (hp : s.isPublic = false)
    (h1 : f.files = enumFrom 0 o.files.getMapping) : f.linesOf (symOf s) = s.readLines o.files.getMapping := by
  unfold SymFile.linesOf Symbol.readLines
  simp only [symOf, hp, Bool.false_eq_true, if_false]
  apply List.map_congr_left
  intro l _
  simp only [path_read h1]

/-- The FUNC record found for an address is that of a symbol. -/
theorem funcAt_some {f : SymFile} {m : Symbols} (hf : f.symbols = m.map fun e => symOf e.2) (hs : m.Sorted) (hk : Keyed m)
    {a : Nat} {r : RSym} (h : f.funcAt a = some r) :
    ∃ addr s, m.get? addr = some s ∧ s.isPublic = false ∧ r = symOf s ∧ r.rva = addr ∧ addr ≤ a ∧ a < addr + s.len ∧
      ∀ b x, addr < b → b ≤ a → m.get? b = some x → x.isPublic = true := by
  unfold SymFile.funcAt at h
  have rva : ∀ x : Symbol, (symOf x).rva = x.rva := by intro x; unfold symOf; split <;> rfl
  have pubeq : ∀ x : Symbol, (symOf x).isPublic = x.isPublic := by
    intro x; unfold symOf; split
    · rename_i h; exact h.symm
    · rename_i h; simpa using (Bool.not_eq_true _ ▸ h)
  rw [hf, List.filter_map, List.getLast?_map] at h
  cases hl : (m.filter ((fun r : RSym => !r.isPublic && decide (r.rva ≤ a)) ∘ fun e => symOf e.2)).getLast? with
  | none => rw [hl] at h; cases h
  | some e =>
    rw [hl] at h
    simp only [Option.map_some] at h
    have hmem := List.mem_of_getLast? hl
    obtain ⟨h1, h2⟩ := List.mem_filter.mp hmem
    have hg := SMap.get?_of_mem hs h1
    simp only [Function.comp_def, pubeq, rva, (hk _ _ hg).1, Bool.and_eq_true, Bool.not_eq_true', decide_eq_true_eq] at h2
    split at h
    · rename_i hlt
      cases h
      have hlen : (symOf e.2).len = e.2.len := by simp [symOf, h2.1]
      rw [rva, (hk _ _ hg).1, hlen] at hlt
      refine ⟨e.1, e.2, hg, h2.1, rfl, by rw [rva, (hk _ _ hg).1], h2.2, hlt, ?_⟩
      intro b x hb1 hb2 hx
      cases hxp : x.isPublic with
      | true => rfl
      | false =>
        exfalso
        have hxm : (b, x) ∈ m.filter ((fun r : RSym => !r.isPublic && decide (r.rva ≤ a)) ∘ fun e => symOf e.2) := by
          refine List.mem_filter.mpr ⟨SMap.mem_of_get? hx, ?_⟩
          simp [pubeq, rva, hxp, (hk _ _ hx).1, hb2]
        have hsf := (sorted_lt hs).filter ((fun r : RSym => !r.isPublic && decide (r.rva ≤ a)) ∘ fun e => symOf e.2)
        obtain ⟨A, B, eq⟩ := List.append_of_mem hxm
        rw [eq] at hl hsf
        rw [List.pairwise_append, List.pairwise_cons] at hsf
        cases B with
        | nil => simp at hl; rw [← hl] at hb1; simp at hb1
        | cons y B =>
          have : e ∈ y :: B := by
            have := List.mem_of_getLast? (l := y :: B) (a := e) (by simpa [List.getLast?_append] using hl)
            exact this
          have := hsf.2.1.1 e this
          simp only at this
          omega
    · cases h

/-- Where a FUNC of the merged object comes from, when the table of paths of the smaller one is complete, or the larger one has no paths. -/
theorem complete_left {rename : Str → Str} {order : List (Str × Nat) → List (Str × Nat)} (ho : IterOrder order)
    {L R M : ObjectInfo} (l1 : L.Good) (l2 : L.files.Follows rename) (r1 : R.Good) (r2 : R.files.Follows rename) (r3 : R.files.Complete ∨ L.files.idToRef = [])
    (hf : L.files.getMapping.length + R.files.getMapping.length ≤ M32)
    (hor : L.inlineOrigins.length + R.inlineOrigins.length < M32) (hM : mergeInto order L R = .ok M) {a : Nat} :
    (∀ s, L.symbols.get? a = some s → s.isPublic = false →
      (∀ x, R.symbols.get? a = some x → x.isPublic = false ∨ s.isSynthetic = false) →
      ∃ m, M.symbols.get? a = some { s with isMultiple := m } ∧ SameRecords M { s with isMultiple := m } L s) ∧
    (∀ x, R.symbols.get? a = some x → x.isPublic = false → (∀ s, L.symbols.get? a = some s → s.isPublic = true) →
      ∃ s, M.symbols.get? a = some s ∧ s.SameHeader x ∧ SameRecords M s R x) := by
  obtain ⟨M', t, m1, _, m2, m3, _, _, _, _, _, _, _, _, m4, m5⟩ := mergeInto_spec ho l1 r1 hf hor
  rw [hM] at m1; cases m1
  obtain ⟨F, t', b1, _, b2, _, b3, _, b4, b5⟩ := SourceMap.merge_spec ho l1.files r1.files hf
  rw [m2] at b1; cases b1
  obtain ⟨o1, _, _, o2⟩ := originsMerge_spec L.inlineOrigins R.inlineOrigins hor
  rw [← m3] at o1 o2
  have ht : ∀ i, i < R.files.getMapping.length → ∃ j, fileTo t i = some j ∧ M.files.getMapping[j]? = R.files.getMapping[i]? := by
    intro i hi
    obtain ⟨j, h1, _⟩ := b3 i hi
    exact ⟨j, h1, b4 _ l2 r2 r3 i j hi h1⟩
  constructor
  · intro s hs hp hx
    have hids := l1.ids a s hs
    have key : ∀ m, M.symbols.get? a = some { s with isMultiple := m } →
        ∃ m, M.symbols.get? a = some { s with isMultiple := m } ∧ SameRecords M { s with isMultiple := m } L s :=
      fun m h => ⟨m, h, readLines_prefix b2 hids m, List.Perm.of_eq (readInlines_prefix b2 o1 hids m)⟩
    cases hr : R.symbols.get? a with
    | none => exact key s.isMultiple (by rw [m4 a hr, hs])
    | some x =>
      obtain ⟨b, _, hb⟩ := m5 a x hr
      rw [hs] at hb
      unfold mergedAt at hb
      by_cases hxp : x.isPublic = true
      · have hsyn : s.isSynthetic = false := by
          rcases hx x hr with h | h
          · rw [hxp] at h; cases h
          · exact h
        simp only [if_pos hxp, hsyn, Bool.false_eq_true, if_false] at hb
        cases b with
        | true => exact key s.isMultiple hb
        | false =>
          simp only [Bool.false_eq_true, if_false] at hb
          by_cases h1 : x.isSynthetic = true
          · rw [if_pos h1] at hb; exact key s.isMultiple hb
          · rw [if_neg h1] at hb
            by_cases h3 : s.name ≠ x.name
            · rw [if_pos h3] at hb; exact key true (by rw [hb, hsyn])
            · rw [if_neg h3] at hb; exact key s.isMultiple hb
      · simp only [if_neg hxp, hp, Bool.false_eq_true, if_false] at hb
        exact key true (by rw [hb, hp])
  · intro x hr hp hl
    have hids := r1.ids a x hr
    obtain ⟨b, _, hb⟩ := m5 a x hr
    have key : ∀ m, M.symbols.get? a = some { symNew t (InlineOrigins.merge L.inlineOrigins R.inlineOrigins).2 x with isMultiple := m } →
        ∃ s, M.symbols.get? a = some s ∧ s.SameHeader x ∧ SameRecords M s R x := by
      intro m h
      refine ⟨_, h, symNew_header t (InlineOrigins.merge L.inlineOrigins R.inlineOrigins).2 x, readLines_symNew hids ht m, ?_⟩
      refine readInlines_symNew hids ?_ ht (b5 r3) o2 m
      exact (SMap.keys_pairwise_iff.mp (r1.inlines a x hr).1).imp SMap.lt_ne
    unfold mergedAt at hb
    rw [if_neg (by simp [hp])] at hb
    cases hs : L.symbols.get? a with
    | none => rw [hs] at hb; exact key _ hb
    | some s =>
      rw [hs] at hb
      simp only [hl s hs, if_true] at hb
      exact key true hb

/-- Where a FUNC of the merged object comes from. -/
theorem merged_left {mapping : Str → Option Str} {order : List (Str × Nat) → List (Str × Nat)} (ho : IterOrder order)
    {L R M : ObjectInfo} (hL : Accumulated mapping L) (hR : DumpedUnder mapping R)
    (hf : L.files.getMapping.length + R.files.getMapping.length ≤ M32)
    (hor : L.inlineOrigins.length + R.inlineOrigins.length < M32) (hM : mergeInto order L R = .ok M) {a : Nat} :
    (∀ s, L.symbols.get? a = some s → s.isPublic = false →
      (∀ x, R.symbols.get? a = some x → x.isPublic = false ∨ s.isSynthetic = false) →
      ∃ m, M.symbols.get? a = some { s with isMultiple := m } ∧ SameRecords M { s with isMultiple := m } L s) ∧
    (∀ x, R.symbols.get? a = some x → x.isPublic = false → (∀ s, L.symbols.get? a = some s → s.isPublic = true) →
      ∃ s, M.symbols.get? a = some s ∧ s.SameHeader x ∧ SameRecords M s R x) :=
  complete_left ho hL.spec.1 hL.spec.2 hR.spec.1 hR.spec.2.1 (.inl hR.spec.2.2) hf hor hM

/-- **C78.** Merging does not change what lookups find.  `L` is the object with more symbols, `R` the other one.  Take an address for which
a FUNC record is found in the printed `o` (one of the two), with at most one INLINE record for each depth.  If the other object has no FUNC
that starts after it and up to the address, then the same frames are found in the printed result, provided the FUNC is in the result: what
the other object has at the same address is a PUBLIC and the FUNC is no placeholder, or a FUNC and `o` is the larger object, or `o` is the
smaller object and a PUBLIC is there. -/
theorem C78_merged_lookup (mapping : Str → Option Str) (order : List (Str × Nat) → List (Str × Nat)) (ho : IterOrder order)
    (l r L R : ObjectInfo) (hLR : Larger l r L R) (hd : l.debugId = r.debugId)
    (hL : Accumulated mapping L) (hR : DumpedUnder mapping R)
    (hf : L.files.getMapping.length + R.files.getMapping.length ≤ M32)
    (hor : L.inlineOrigins.length + R.inlineOrigins.length < M32) :
    ∃ M, ObjectInfo.merge order l r = .ok M ∧ ∀ (extra : Option (List Str)) (o p : ObjectInfo),
      (o = L ∧ p = R ∨ o = R ∧ p = L) → o.Readable (extra.getD []) → p.Readable (extra.getD []) →
      ∃ textM fileM text file, M.display extra = .ok textM ∧ readSymFile textM = some fileM ∧
        o.display extra = .ok text ∧ readSymFile text = some file ∧
        ∀ a rec, file.funcAt a = some rec → rec.ClearAt a →
          (∀ b x, rec.rva < b → b ≤ a → p.symbols.get? b = some x → x.isPublic = true) →
          (∀ x, p.symbols.get? rec.rva = some x →
            (o = L ∧ (x.isPublic = false ∨ ∃ s, L.symbols.get? rec.rva = some s ∧ s.isSynthetic = false)) ∨
            (o = R ∧ x.isPublic = true)) →
          fileM.framesAt a = file.framesAt a := by
  obtain ⟨M, h1, h2⟩ := merged_records ho hL hR hf hor
  refine ⟨M, by rw [hLR.merge hd]; exact h1, ?_⟩
  intro extra o p hop rO rP
  have rM : M.Readable (extra.getD []) := by
    rcases hop with ⟨rfl, rfl⟩ | ⟨rfl, rfl⟩
    · exact mergeInto_readable rO rP h1
    · exact mergeInto_readable rP rO h1
  have hML := fun a => merged_left ho hL hR hf hor h1 (a := a)
  have gL := hL.spec.1
  have gR := hR.spec.1
  have gM : M.Good := by
    obtain ⟨M', t, m1, m2, _⟩ := mergeInto_spec ho gL gR hf hor
    rw [h1] at m1; cases m1; exact m2
  have gO : o.Good := by rcases hop with ⟨rfl, _⟩ | ⟨rfl, _⟩ <;> assumption
  obtain ⟨textM, fileM, a1, a2, _, _, _, a3, a4, a5, _⟩ := read_display rM (fun e he =>
    (gM.inlines _ _ (SMap.get?_of_mem gM.sorted he)).2)
  obtain ⟨text, file, b1, b2, _, _, _, b3, b4, b5, _⟩ := read_display rO (fun e he =>
    (gO.inlines _ _ (SMap.get?_of_mem gO.sorted he)).2)
  refine ⟨textM, fileM, text, file, a1, a2, b1, b2, ?_⟩
  intro a rec hfa hclear hbetween hsame
  obtain ⟨addr, s, c1, c2, rfl, c3, c4, c5, c6⟩ := funcAt_some b5 gO.sorted gO.keyed hfa
  rw [c3] at hbetween hsame
  -- the FUNC is in the result
  have hin : ∃ s', M.symbols.get? addr = some s' ∧ s'.SameHeader s ∧ SameRecords M s' o s := by
    rcases hop with ⟨rfl, rfl⟩ | ⟨rfl, rfl⟩
    · obtain ⟨m, d1, d2⟩ := (hML addr).1 s c1 c2 (by
        intro x hx
        rcases hsame x hx with ⟨_, h | ⟨s', h, h'⟩⟩ | ⟨e, h⟩
        · exact .inl h
        · rw [c1] at h; cases h; exact .inr h'
        · subst e; rw [c1] at hx; cases hx; exact .inl c2)
      exact ⟨_, d1, ⟨rfl, rfl, rfl, rfl, rfl, rfl⟩, d2⟩
    · by_cases he : o = p
      · subst he
        obtain ⟨m, d1, d2⟩ := (hML addr).1 s c1 c2 (by intro x hx; rw [c1] at hx; cases hx; exact .inl c2)
        exact ⟨_, d1, ⟨rfl, rfl, rfl, rfl, rfl, rfl⟩, d2⟩
      · exact (hML addr).2 s c1 c2 (by
          intro x hx
          rcases hsame x hx with ⟨e, _⟩ | ⟨_, h⟩
          · exact absurd e he
          · exact h)
  obtain ⟨s', d1, d2, d3⟩ := hin
  have hp' : s'.isPublic = false := by rw [d2.2.1]; exact c2
  have hfunc := funcAt_read (a := a) a5 gM.sorted gM.keyed d1 hp' c4 (by rw [d2.2.2.2.2.1]; exact c5) (by
    intro b x e1 e2 hx
    obtain ⟨y, y1, y2⟩ := h2 b x hx
    rw [y1.2.1]
    rcases hop with ⟨rfl, rfl⟩ | ⟨rfl, rfl⟩
    · rcases y2 with ⟨y2, _⟩ | ⟨y2, _⟩
      · exact c6 b y e1 e2 y2
      · exact hbetween b y e1 e2 y2
    · rcases y2 with ⟨y2, _⟩ | ⟨y2, _⟩
      · exact hbetween b y e1 e2 y2
      · exact c6 b y e1 e2 y2)
  unfold SymFile.framesAt
  rw [hfunc, hfa]
  simp only [Option.map_some, Option.some.injEq]
  have hnm : ∀ x : Symbol, (symOf x).name = x.name := by intro x; unfold symOf; split <;> rfl
  refine (frames_same (by rw [hnm, hnm, d2.1]) hclear ?_ ?_).symm
  · exact (inlinesOf_symOf c2 b3 b4).trans ((d3.2.symm.map _).trans (inlinesOf_symOf hp' a3 a4).symm)
  · rw [linesOf_symOf c2 b3, linesOf_symOf hp' a3, d3.1]

/-- **C78 from the debug information**: under the conditions of C67 for a function of one of the two dumps, looking an address
of it up in the printed merge finds the frames the debug information of that dump describes, when the other dump has no FUNC
starting after the function and at or before the address, nor (if it is the larger one) at the function's own start. -/
theorem C78_merged_symbolicate (env : CEnv) (mem : Mem) (U : List Str) (V : List Name) (platform : Platform) (main : ObjInput)
    (fs : List (Option Func)) (hok : ObjOk env mem U V platform main fs) (name : Str) (pe : Option ObjInput)
    (peName : Option Str) (o p : ObjectInfo) (ho : fromObject env true platform main name pe peName = .ok o)
    (hp : DumpedUnder env.src.mapping p)
    (order : List (Str × Nat) → List (Str × Nat)) (hord : IterOrder order)
    (l r L R : ObjectInfo) (hLR : Larger l r L R) (hd : l.debugId = r.debugId) (hop : o = L ∧ p = R ∨ o = R ∧ p = L)
    (hf : L.files.getMapping.length + R.files.getMapping.length ≤ M32)
    (hor : L.inlineOrigins.length + R.inlineOrigins.length < M32)
    (addr : Nat) (f : Func) (rest : List Func) (hfirst : funcsAt fs addr = f :: rest) (hend : f.address + f.size < M32)
    (hwf : f.WF) (hgap : f.InlineesNoGap env.src) (hext : ∀ l ∈ f.lines, l.stop ≤ f.address + f.size)
    (fn : Str) (hfn : Shown env.dm f.name fn) (hname : platform ≠ .win ∨ '(' ∈ fn)
    (path : ByteSlice → FileInfo → Str) (nameOf : Name → Str) (hpr : Printed env path nameOf)
    (a : Nat) (hlo : addr ≤ a) (hhi : a < f.address + f.size) (hbetween : ∀ b, addr < b → b ≤ a → funcsAt fs b = [])
    (hother : ∀ b x, addr < b → b ≤ a → p.symbols.get? b = some x → x.isPublic = true)
    (hstart : o = L ∨ ∀ x, p.symbols.get? addr = some x → x.isPublic = true)
    (li : LineInfo) (c : ByteSlice) (hl : Innermost f a li c) (cs : List CallStep) (hcs : Chain f a cs) :
    ∃ M, ObjectInfo.merge order l r = .ok M ∧ ∀ extra : Option (List Str), o.Readable (extra.getD []) →
      p.Readable (extra.getD []) →
      ∃ text file, M.display extra = .ok text ∧ readSymFile text = some file ∧
        file.framesAt a = some (debugFrames path nameOf fn cs li c) := by
  have hod : DumpedUnder env.src.mapping o := ⟨env, mem, U, V, platform, main, fs, true, name, pe, peName, hok, rfl, ho⟩
  have hL : Accumulated env.src.mapping L := by
    rcases hop with ⟨rfl, _⟩ | ⟨_, rfl⟩
    · exact .dump _ hod
    · exact .dump _ hp
  have hR : DumpedUnder env.src.mapping R := by rcases hop with ⟨_, rfl⟩ | ⟨rfl, _⟩ <;> assumption
  obtain ⟨M, h1, h2⟩ := C78_merged_lookup env.src.mapping order hord l r L R hLR hd hL hR hf hor
  refine ⟨M, h1, fun extra rO rP => ?_⟩
  obtain ⟨rfl, rfl⟩ := (printed_iff _ _ _).mp hpr
  cases (shown_demangle _ _ _).mp hfn
  obtain ⟨st, sym, s1, s2, s3⟩ := C12_innermost_line env mem U V fs hok.input addr f rest hfirst hend hwf hgap hext
  obtain ⟨st', sym', t1, t2, paths, names, n1, n2, t3, t4, t5⟩ := C13_inline_chain env mem U V fs hok.input addr f rest hfirst hwf
  rw [originNames_iff] at t4
  rw [s1] at t1; cases t1
  rw [s2] at t2; cases t2
  obtain ⟨t5, t6⟩ := t5 a cs hcs
  simp only [records_iff, exists_eq_left] at t5 t6
  obtain ⟨fileId, _, l1, hrec, l2⟩ := s3 a li c hl
  cases records_iff.mp hrec
  obtain ⟨text, file, s, x1, x2, x3, x0, x4, x5, x6, x7, x8⟩ :=
    symbolicate_core hok ho rO hfirst hend hlo hhi hbetween s1 s2 t3 t4 t5 t6 l1 l2
  obtain ⟨textM, fileM, text', file', y1, y2, y3, y4, y5⟩ := h2 extra o p hop rO rP
  rw [x1] at y3; cases y3
  rw [x2] at y4; cases y4
  refine ⟨textM, fileM, y1, y2, ?_⟩
  rw [x0 hname] at x3
  rw [← x3]
  refine y5 a _ x6 (x8 n1 n2) (by rw [x7]; exact hother) ?_
  intro x hx
  rw [x7] at hx ⊢
  rcases hstart with e | h
  · exact .inl ⟨e, .inr ⟨s, by rw [← e]; exact x4, x5⟩⟩
  · rcases hop with ⟨e, _⟩ | ⟨e, _⟩
    · exact .inl ⟨e, .inr ⟨s, by rw [← e]; exact x4, x5⟩⟩
    · exact .inr ⟨e, h x hx⟩

/-! ## Examples -/

/-- Three functions, and unwind information whose last line is complete. -/
def mD : ObjInput := { mC with unwind := some (str% "STACK CFI 2\n") }

/-- The dump of C67's example and the larger one of three functions. -/
def mergedSym : ObjectInfo := theObj (ObjectInfo.merge id (symObj true) (theObj (dumpOf mD)))

theorem mD_dumped : DumpedUnder sampleEnv.mapping (theObj (dumpOf mD)) :=
  dumpOf_dumped (m := mD) (fs := [mC1, mC2, mC3]) rfl (by
    simp only [List.mem_cons, List.not_mem_nil, or_false]
    rintro f (rfl | rfl | rfl) <;> exact sampleNode _ _ _ _ _ (by decide) (by simp)) (by intro es h; cases h) rfl

theorem mD_readable : (theObj (dumpOf mD)).Readable [] where
  cpu := by decide
  debugId := by decide
  fileName := by decide
  files := by decide
  origins := by decide
  names := by decide
  codeId := by intro c h; cases h; decide
  peName := by intro c h; cases h
  extraLines := by simp
  extraCode := by simp
  stack := ⟨[str% "CFI 2"], rfl, by decide⟩

/-- The hypotheses of C78 hold: the frames of an address in `h` inlined into `g` inlined into `f`, looked up in the merge. -/
example : ∃ text file, mergedSym.display none = .ok text ∧ readSymFile text = some file ∧
    file.framesAt 0x1006 = some
      [⟨str% "f()", some (str% "git:x.c"), 10⟩, ⟨str% "g()", some (str% "/c/y.c"), 50⟩, ⟨str% "h()", some (str% "/c/y.c"), 70⟩] := by
  have hg : sampleG.Covers 0x1006 := ⟨_, List.mem_cons_self, ⟨by decide, by decide⟩⟩
  have hh : sampleH.Covers 0x1006 := ⟨_, List.mem_cons_self, ⟨by decide, by decide⟩⟩
  have hcs : Chain sampleF 0x1006 [⟨sampleG.name, ⟨0x1000, some 0x10, sampleFile1, 10⟩, sampleF.comp⟩,
      ⟨sampleH.name, ⟨0x1004, some 4, sampleFile3, 50⟩, sampleG.comp⟩] :=
    .cons _ sampleG _ _ _ (by simp [sampleF, Func.lines]) ⟨by decide, by decide⟩ (by simp [sampleF, Func.inlinees]) hg
      (.cons _ sampleH _ _ _ (by simp [sampleG, Func.lines]) ⟨by decide, by decide⟩ (by simp [sampleG, Func.inlinees]) hh
        (.nil _ _ (by simp [sampleH, Func.inlinees])))
  have hl : Innermost sampleF 0x1006 ⟨0x1006, some 2, sampleFile3, 70⟩ sampleComp :=
    .inl _ sampleG _ _ _ (by simp [sampleF, Func.inlinees]) hg
      (.inl _ sampleH _ _ _ (by simp [sampleG, Func.inlinees]) hh
        (.self _ _ _ (by simp [sampleH, Func.lines]) ⟨by decide, by decide⟩ (by simp [sampleH, Func.inlinees])))
  have hno : ∀ b, 0x1000 ≤ b → b ≤ 0x1006 → (theObj (dumpOf mD)).symbols.get? b = none := by
    intro b h1 h2
    have : b = 0x1000 ∨ b = 0x1001 ∨ b = 0x1002 ∨ b = 0x1003 ∨ b = 0x1004 ∨ b = 0x1005 ∨ b = 0x1006 := by omega
    rcases this with rfl | rfl | rfl | rfl | rfl | rfl | rfl <;> decide
  obtain ⟨M, h1, h2⟩ := C78_merged_symbolicate sampleCEnv sampleMem sampleU sampleV .linux symInput sampleFs symInput_ok
    (str% "/lib/f.so") none none
    (symObj true) (theObj (dumpOf mD)) rfl mD_dumped id (fun _ => .refl _) (symObj true) (theObj (dumpOf mD)) (theObj (dumpOf mD))
    (symObj true) (.inr ⟨by decide, rfl, rfl⟩) (by decide) (.inr ⟨rfl, rfl⟩) (by decide) (by decide)
    0x1000 sampleF [.mk 0x1000 4 (nm (str% "f2")) sampleComp [] []]
    rfl (by decide) sampleF_wf sampleF_nogap (by decide) (str% "f()") ((shown_demangle _ _ _).mpr rfl) (.inl (by decide))
    _ _ ((printed_iff _ _ _).mpr ⟨rfl, rfl⟩) 0x1006 (by decide) (by decide)
    (by intro b h1 h2; have : b = 0x1001 ∨ b = 0x1002 ∨ b = 0x1003 ∨ b = 0x1004 ∨ b = 0x1005 ∨ b = 0x1006 := by omega
        rcases this with rfl | rfl | rfl | rfl | rfl | rfl <;> rfl)
    (by intro b x h1 h2 h; rw [hno b (by omega) h2] at h; cases h)
    (.inr (by intro x h; rw [hno _ (by decide) (by decide)] at h; cases h))
    _ _ hl _ hcs
  have hM : M = mergedSym := by unfold mergedSym; rw [h1]; rfl
  subst hM
  exact h2 none (symObj_readable true) mD_readable

/-- The frames `lookup` finds in a printed module. -/
def printedFrames (o : ObjectInfo) (a : Nat) : Option (List Frame) :=
  match o.display none with
  | .ok t => (readSymFile t).bind (·.framesAt a)
  | _ => none

/-- The files of `mA` are renumbered (`x.c` is its first file and the second of `mC`), and the frames stay. -/
example : (let A := theObj (dumpOf mA); let M := theObj (ObjectInfo.merge id A (theObj (dumpOf mC)))
    (printedFrames A 0x100b, decide (printedFrames M 0x100b = printedFrames A 0x100b),
      A.files.getMapping == M.files.getMapping)) =
    (some [⟨str% "a()", some (str% "/c/y.c"), 10⟩, ⟨str% "g()", some (str% "git:x.c"), 50⟩], true, false) := by decide +kernel

/-- A larger object with another function at the address of `a`. -/
def mergedBig : ObjInput := objOf sid true [.mk 0x1000 0x10 (nm (str% "c3")) sampleComp [] [], mB1] []

/-- Why the FUNCs of the other module matter: of two at the same address only the larger module's is kept, so the lines and
frames of the other are lost. -/
theorem C78_same_start_witness : ∃ A B M : ObjectInfo, DumpedUnder sampleEnv.mapping A ∧ DumpedUnder sampleEnv.mapping B ∧
    ObjectInfo.merge id A B = .ok M ∧
    printedFrames A 0x1002 = some [⟨str% "a()", some (str% "git:x.c"), 10⟩, ⟨str% "g()", some (str% "git:x.c"), 50⟩] ∧
    printedFrames M 0x1002 = some [⟨str% "c3()", none, 0⟩] := by
  refine ⟨theObj (dumpOf mA), theObj (dumpOf mergedBig), _,
    mA_dumped, ?_, rfl, by decide +kernel, by decide +kernel⟩
  refine dumpOf_dumped (m := mergedBig) (fs := [.mk 0x1000 0x10 (nm (str% "c3")) sampleComp [] [], mB1]) rfl ?_ (by intro es h; cases h) rfl
  simp only [List.mem_cons, List.not_mem_nil, or_false]
  rintro f (rfl | rfl) <;> exact sampleNode _ _ _ _ _ (by decide) (by simp)

end DumpSyms
