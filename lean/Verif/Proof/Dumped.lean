import Verif.Proof.MergeSyms
import Verif.Spec.Object
import Verif.Proof.Mini
import Verif.Props.Symbol
import Verif.Props.Collector
/-!
# What every dumped object satisfies
-/
namespace DumpSyms
open Collector ObjectInfo Symbols

/-- `m'` is `m` with symbols without records added, and names, flags and parameter sizes of others changed. -/
structure Extends (m m' : Symbols) : Prop where
  sorted : m'.Sorted
  keyed : Keyed m'
  keep : ∀ a s, m.get? a = some s → ∃ s', m'.get? a = some s' ∧ s'.source = s.source ∧ s'.isPublic = s.isPublic ∧
    s'.len = s.len ∧ s'.isSynthetic = s.isSynthetic ∧ (s.isMultiple = true → s'.isMultiple = true)
  new : ∀ a s, m.get? a = none → m'.get? a = some s → s.NoRecords

theorem Extends.trans {m m' m'' : Symbols} (h : Extends m m') (h' : Extends m' m'') : Extends m m'' where
  sorted := h'.sorted
  keyed := h'.keyed
  keep := by
    intro a s hs
    obtain ⟨s', a1, a2, a3, a4, a5, a6⟩ := h.keep a s hs
    obtain ⟨s'', b1, b2, b3, b4, b5, b6⟩ := h'.keep a s' a1
    exact ⟨s'', b1, b2.trans a2, b3.trans a3, b4.trans a4, b5.trans a5, fun x => b6 (a6 x)⟩
  new := by
    intro a s hn hs
    cases h1 : m'.get? a with
    | none => exact h'.new a s h1 hs
    | some s' =>
      obtain ⟨s'', b1, b2, _⟩ := h'.keep a s' h1
      rw [hs] at b1; cases b1
      have := h.new a s' hn h1
      unfold Symbol.NoRecords at this ⊢
      rw [b2]; exact this

theorem Extends.refl {m : Symbols} (hs : m.Sorted) (hk : Keyed m) : Extends m m :=
  ⟨hs, hk, fun _ s h => ⟨s, h, rfl, rfl, rfl, rfl, id⟩, fun a s h h' => by rw [h] at h'; cases h'⟩

theorem publics_extends {env : CEnv} {pl : Platform} {ps : List Public} {m m' : Symbols} (hs : m.Sorted) (hk : Keyed m)
    (h : collectPublics env pl ps m = .ok m') : Extends m m' := by
  obtain ⟨a1, a2, a3, a4, a5, _⟩ := C15_publics env pl ps m m' hs hk h
  refine ⟨a1, a2, ?_, fun a s hn hg => (a5 a s hn hg).2.2.2.1⟩
  intro a s hg
  cases hp : s.isPublic with
  | false =>
    obtain ⟨n, k, e, _⟩ := a3 a s hg hp
    exact ⟨_, e, rfl, hp, rfl, rfl, id⟩
  | true =>
    rcases a4 a s hg hp with e | e
    · exact ⟨_, e, rfl, hp, rfl, rfl, id⟩
    · exact ⟨_, e, rfl, hp, rfl, rfl, fun _ => rfl⟩

theorem placeholders_extends {main : ObjInput} {name : Str} {pe : Option Str} {m : Symbols} (hs : m.Sorted) (hk : Keyed m)
    (he : ∀ es, main.exceptions = some es → ∀ e ∈ es, e.begin < M32 ∧ e.stop < M32) :
    Extends m (withPlaceholders main name pe m) := by
  unfold withPlaceholders
  split
  · cases hx : main.exceptions with
    | none => exact Extends.refl hs hk
    | some es =>
      simp only
      obtain ⟨a1, a2, a3, a4, _⟩ := C16_placeholders (pe.getD name) es m hs hk (he es hx)
      exact ⟨a1, a2, fun a s hg => ⟨s, a3 a s hg, rfl, rfl, rfl, rfl, id⟩, fun a s hn hg => (a4 a s hn hg).2.2.2.2.1⟩
  · exact Extends.refl hs hk

theorem sections_extends {name : Str} {k : ObjKind} {m : Symbols} (hs : m.Sorted) (hk : Keyed m) :
    Extends m (m.addExecutableSectionSymbols name k) := by
  have dummy : ∀ k, k = ObjKind.pe ∨ k = ObjKind.pdb → Extends m (m.addExecutableSectionSymbols name k) := by
    intro k hk'
    obtain ⟨a1, a2, a3, a4, a5⟩ := C17_end_of_module name k hk' m hs hk
    refine ⟨a1, a2, fun a s hg => ⟨s, a3 a s hg, rfl, rfl, rfl, rfl, id⟩, ?_⟩
    have hap : m.addExecutableSectionSymbols name k = m.appendDummy name := by rcases hk' with rfl | rfl <;> rfl
    rw [hap]
    intro a s hn hg
    unfold appendDummy at hg
    split at hg
    · rw [hn] at hg; cases hg
    · rename_i last _
      simp only at hg
      rw [get?_orInsert hs] at hg
      by_cases hxa : (if last.len = 0 then wadd last.rva 1 else wadd last.rva last.len) = a
      · rw [if_pos hxa, hxa, hn] at hg
        cases hg; exact ⟨rfl, rfl⟩
      · rw [if_neg hxa, hn] at hg; cases hg
  cases k with
  | elf hds =>
    obtain ⟨a1, a2, a3, _, a5⟩ := C17_sections name hds m hs
    exact ⟨a1, a2 hk, fun a s hg => ⟨s, a3 a s hg, rfl, rfl, rfl, rfl, id⟩, fun a s hn hg => (a5 a s hn hg).2.2.2.2.2.1⟩
  | pe => exact dummy _ (.inl rfl)
  | pdb => exact dummy _ (.inr rfl)
  | other => exact Extends.refl hs hk

theorem settled_wf {env : CEnv} {mem : Mem} {s : SourceFiles} {ps : List Str} (h : SrcSettled env.src mem s ps) :
    s.getMapping.WF ∧ s.getMapping.Follows (mapped env.src) ∧ s.getMapping.Complete ∧
    s.getMapping.idToRef.length = ps.length := by
  have hlen : s.idToRef.length = ps.length := by rw [h.ids_eq]; simp
  have hk : (s.refToId.map (·.1)).Nodup := by rw [h.keys]; simpa [List.Nodup, List.pairwise_reverse, ne_comm] using h.nodup
  have hval : ∀ e ∈ s.refToId, e.1 ∈ ps ∧ e.2 = ps.idxOf e.1 := by
    intro e he
    have := lookup_of_mem hk (p := e.1) (v := e.2) he
    rw [h.lookup] at this
    split at this
    · exact ⟨by assumption, (Option.some.inj this).symm⟩
    · cases this
  refine ⟨⟨hk, ?_, ?_⟩, ?_, ?_, hlen⟩
  · show (s.refToId.map (·.2)).Nodup
    have : s.refToId.map (·.2) = (s.refToId.map (·.1)).map (fun p => ps.idxOf p) := by
      rw [List.map_map]
      exact List.map_congr_left (fun e he => (hval e he).2)
    rw [this, List.Nodup, List.pairwise_map]
    refine (List.Pairwise.and_mem.mp hk).imp ?_
    intro a b hab heq
    obtain ⟨ha, hb, hne⟩ := hab
    have ha' : a ∈ ps := by rw [h.keys] at ha; simpa using ha
    have hb' : b ∈ ps := by rw [h.keys] at hb; simpa using hb
    exact hne (idxOf_inj ha' hb' heq)
  · intro e he
    show e.2 < s.idToRef.length
    rw [hlen, (hval e he).2]
    exact List.idxOf_lt_length_of_mem (hval e he).1
  · intro e he
    show s.idToRef[e.2]? = _
    rw [h.ids_eq, List.getElem?_map, (hval e he).2, getElem?_idxOf (hval e he).1]
    rfl
  · intro i hi
    have hi' : i < ps.length := hlen ▸ hi
    refine ⟨ps[i], mem_of_lookup ?_⟩
    show s.refToId.lookup _ = _
    rw [h.lookup, if_pos (List.getElem_mem hi'), List.Nodup.idxOf_getElem h.nodup i hi']

theorem finalized_inlines (ops : List LOp) (a b : Nat) :
    SMap.Sorted ((Lines.run ops).finalized a b).inlines ∧ ∀ e ∈ ((Lines.run ops).finalized a b).inlines, e.2 ≠ [] := by
  have hk := Lines.run_inlines_sorted ops
  unfold Lines.finalized
  simp only
  constructor
  · rw [SMap.keys_pairwise_iff, Lines.ensureOrder_inlines_keys, ← SMap.keys_pairwise_iff]; exact hk
  · intro e he
    rw [Lines.ensureOrder_inlines, List.mem_map] at he
    obtain ⟨d, hd, rfl⟩ := he
    simp only
    intro hnil
    rw [Lines.joinRanges_eq_nil] at hnil
    have hg := SMap.get?_of_mem (k := d.1) (v := d.2) hk hd
    rw [Lines.run_inlines_get] at hg
    split at hg
    · cases hg
    · rename_i hne
      rw [← Option.some.inj hg] at hnil
      have := (isort_perm (fun (a b : IRange) => decide (a.rva ≤ b.rva)) (rangesOf d.1 ops)).length_eq
      rw [hnil] at this
      exact hne (List.length_eq_zero_iff.mp this.symm)

/-- Dumping an acceptable object never fails, and the result is good. -/
theorem fromObject_spec {env : CEnv} {mem : Mem} {U : List Str} {V : List Name} {platform : Platform} {main : ObjInput}
    {fs : List (Option Func)} (h : ObjOk env mem U V platform main fs) (inlines : Bool) (mainFileName : Str)
    (pe : Option ObjInput) (peFileName : Option Str) :
    ∃ o st ps seen, fromObject env inlines platform main mainFileName pe peFileName = .ok o ∧ o.Good ∧
      collectFunctions env inlines fs State.new = .ok st ∧ TablesOk env mem U V st.src st.org ps seen ∧
      (∀ psF seenF, ps <+: psF → seen <+: seenF → ∀ a,
        st.syms.get? a = expectSym env inlines psF seenF none (funcsAt fs a)) ∧
      st.syms.Sorted ∧ Keyed st.syms ∧
      Extends st.syms o.symbols ∧ o.files = st.src.getMapping ∧ o.inlineOrigins = st.org.demangledNames ∧
      o.files.Follows (mapped env.src) ∧ o.files.Complete ∧
      o.files.idToRef.length = ps.length ∧ o.inlineOrigins.length = seen.length ∧
      o.debugId = main.debugId ∧
      (∀ m1, collectPublics env platform main.publics (withPlaceholders main mainFileName peFileName st.syms) = .ok m1 →
        ∀ m2, withMini env platform main m1 = .ok m2 →
        o.symbols = m2.addExecutableSectionSymbols mainFileName main.kind) := by
  obtain ⟨st, ps, seen, c1, c2, c3, c4, c5⟩ := collected inlines h.input
  have hfin := c5 ps seen (List.prefix_refl _) (List.prefix_refl _)
  have hsym : ∀ a s, st.syms.get? a = some s → ∃ f b, s = funcSymbol env f
      ((Lines.run (opsFor env inlines ps seen f)).finalized (u32 f.address) (u32 f.size)) b := by
    intro a s hs
    rw [hfin a] at hs
    cases hfa : funcsAt fs a with
    | nil => rw [hfa] at hs; cases hs
    | cons f rest =>
      rw [hfa, expectSym_none] at hs
      cases hs; exact ⟨f, _, rfl⟩
  have hkeyed : Keyed st.syms := by
    intro a s hs
    obtain ⟨f, b, rfl⟩ := hsym a s hs
    have := (c4 a _ hs).2
    exact ⟨this, by rw [← this]; exact u32_lt _, u32_lt _⟩
  have e1 := placeholders_extends (main := main) (name := mainFileName) (pe := peFileName) c3 hkeyed h.exceptions
  obtain ⟨m1, hm1⟩ := C15_publics_total env platform main.publics (withPlaceholders main mainFileName peFileName st.syms)
    (fun hw => h.names hw _ (.inl rfl))
  have e2 := e1.trans (publics_extends e1.sorted e1.keyed hm1)
  have hm2 : ∃ m2, withMini env platform main m1 = .ok m2 ∧ Extends st.syms m2 := by
    unfold withMini
    obtain ⟨r, hx⟩ := miniPublics_ok h.embedded
    rw [hx, Res.bind_ok]
    cases r with
    | none => exact ⟨m1, rfl, e2⟩
    | some q =>
      simp only
      obtain ⟨m2, hm2⟩ := C15_publics_total env platform q m1 (fun hw => h.names hw _ (.inr ((embeds_iff h.embedded q).mpr ⟨_, hx, rfl⟩)))
      exact ⟨m2, hm2, e2.trans (publics_extends e2.sorted e2.keyed hm2)⟩
  obtain ⟨m2, hm2, e3⟩ := hm2
  have e4 := e3.trans (sections_extends (name := mainFileName) (k := main.kind) e3.sorted e3.keyed)
  obtain ⟨w1, w2, w3, w4⟩ := settled_wf c2.src
  have hno : st.org.demangledNames.length = seen.length := by rw [c2.org.names]; simp
  have hcollect : collect env inlines platform main mainFileName peFileName fs =
      .ok { st with syms := m2.addExecutableSectionSymbols mainFileName main.kind } := by
    unfold collect
    rw [c1]
    simp only [Res.bind_ok, hm1, hm2]
  have hfrom : ∃ o, fromObject env inlines platform main mainFileName pe peFileName = .ok o ∧
      o.symbols = m2.addExecutableSectionSymbols mainFileName main.kind ∧ o.files = st.src.getMapping ∧
      o.inlineOrigins = st.org.demangledNames ∧ o.debugId = main.debugId := by
    unfold fromObject
    rw [h.functions]
    simp only [hcollect, Res.bind_ok]
    exact ⟨_, rfl, rfl, rfl, rfl, rfl⟩
  obtain ⟨o, o1, o2, o3, o4, o5⟩ := hfrom
  have hfrom' : ∀ a s, o.symbols.get? a = some s → s.NoRecords ∨
      ∃ s0, st.syms.get? a = some s0 ∧ s.source = s0.source ∧ s.isPublic = s0.isPublic := by
    intro a s hs
    rw [o2] at hs
    cases h0 : st.syms.get? a with
    | none => exact .inl (e4.new a s h0 hs)
    | some s0 =>
      obtain ⟨s', b1, b2, b3, _⟩ := e4.keep a s0 h0
      rw [hs] at b1; cases b1
      exact .inr ⟨s0, rfl, b2, b3⟩
  refine ⟨o, st, ps, seen, o1, ?_, c1, c2, c5, c3, hkeyed, by rw [o2]; exact e4, o3, o4, by rw [o3]; exact w2, by rw [o3]; exact w3,
    by rw [o3]; exact w4, by rw [o4]; exact hno, o5, ?_⟩
  · refine ⟨by rw [o2]; exact e4.sorted, by rw [o2]; exact e4.keyed, ?_, ?_, ?_, by rw [o3]; exact w1⟩
    · intro a s hs
      rw [o3, o4, w4, hno]
      rcases hfrom' a s hs with hn | ⟨s0, h0, hsrc, _⟩
      · exact ⟨by simp [hn.1], by simp [hn.2]⟩
      · have := (c4 a s0 h0).1
        unfold Symbol.IdsDefined
        rw [hsrc]
        exact this
    · intro a s hs
      rcases hfrom' a s hs with hn | ⟨s0, h0, hsrc, _⟩
      · rw [hn.2]; exact ⟨by unfold SMap.Sorted; simp, by simp⟩
      · rw [hsrc]
        obtain ⟨f, b, rfl⟩ := hsym a s0 h0
        exact finalized_inlines _ _ _
    · intro a s hs hp
      rcases hfrom' a s hs with hn | ⟨s0, h0, hsrc, hpub⟩
      · exact hn
      · obtain ⟨f, b, rfl⟩ := hsym a s0 h0
        rw [hpub] at hp; cases hp
  · intro m1' hm1' m2' hm2'
    rw [hm1] at hm1'; cases hm1'
    rw [hm2] at hm2'; cases hm2'
    exact o2

end DumpSyms
