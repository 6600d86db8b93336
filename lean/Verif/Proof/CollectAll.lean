import Verif.Proof.CollectorPure
import Verif.Proof.Line
/-!
# Collecting a list of functions
-/
namespace DumpSyms
open Collector

/-- The calls made with inlines off, given the file numbering. -/
def opsFlat (fid : ByteSlice → FileInfo → Nat) (comp : ByteSlice) : List LineInfo → Option (Nat × Nat) → List LOp
  | [], _ => []
  | l :: ls, prev =>
    if l.line = 0 then opsFlat fid comp ls prev
    else if prev ≠ some (l.line, fid comp l.file) then
      .line (u32 l.address) (u32 l.line) (fid comp l.file) :: opsFlat fid comp ls (some (l.line, fid comp l.file))
    else opsFlat fid comp ls prev

theorem linesNoInlines_eq {env : SrcEnv} {mem : Mem} {U : List Str} (hU : U.length ≤ M32) (comp : ByteSlice) (no : Nat)
    (lines : List LineInfo) :
    ∀ (prev : Option (Nat × Nat)) (src : SourceFiles) (ps : List Str),
      SrcSettled env mem src ps → (∀ p ∈ ps, p ∈ U) → (∀ l ∈ lines, RefOk env mem U comp l.file) →
      (∀ n i, prev = some (n, i) → i < ps.length) →
      ∃ ops src' ps', linesNoInlines env comp lines prev src = .ok (ops, src') ∧
        SrcSettled env mem src' ps' ∧ ps <+: ps' ∧ (∀ p ∈ ps', p ∈ U) ∧
        (∀ op ∈ ops, op.IdsBelow ps'.length no) ∧
        ∀ psF, ps' <+: psF → ops = opsFlat (fidOf env psF) comp lines prev := by
  induction lines with
  | nil =>
    intro prev src ps h hps _ _
    exact ⟨[], src, ps, rfl, h, List.prefix_refl _, hps, by simp, by intros; rfl⟩
  | cons l ls ih =>
    intro prev src ps h hps href hprev
    have hrest : ∀ l ∈ ls, RefOk env mem U comp l.file := fun l hl => href l (by simp [hl])
    unfold linesNoInlines
    by_cases h0 : l.line = 0
    · simp only [if_pos h0]
      obtain ⟨ops, src', ps', h1, h2, h3, h4, h5, h6⟩ := ih prev src ps h hps hrest hprev
      refine ⟨ops, src', ps', h1, h2, h3, h4, h5, ?_⟩
      intro psF hF
      rw [h6 psF hF, opsFlat, if_pos h0]
    · simp only [if_neg h0]
      obtain ⟨hf, hp, hm⟩ := refOk_iff.mp (href l (by simp))
      rw [getId_eq hm]
      simp only [Res.bind_ok]
      obtain ⟨e1, s', e2, e3⟩ := fileId_settled h hf (fresh_room h.nodup hU hps hp)
      have hpre := addNew_prefix ps (SourceFiles.getPath env comp l.file)
      have hidF : ∀ psF, addNew ps (SourceFiles.getPath env comp l.file) <+: psF → fidOf env psF comp l.file =
          (addNew ps (SourceFiles.getPath env comp l.file)).idxOf (SourceFiles.getPath env comp l.file) :=
        fun psF hF => idxOf_of_prefix hF (mem_addNew_self ..)
      have hidlt := List.idxOf_lt_length_of_mem (mem_addNew_self ps (SourceFiles.getPath env comp l.file))
      by_cases hpr : prev = some (l.line, (idOfRef env src comp l.file).1)
      · rw [if_neg (by simpa using hpr)]
        have hlt := hprev _ _ hpr
        have hin : SourceFiles.getPath env comp l.file ∈ ps := by
          apply Classical.byContradiction
          intro hn
          rw [e1, idxOf_addNew_new hn] at hlt
          omega
        obtain ⟨k1, k2⟩ := idOfRef_settled_known h hf hin
        obtain ⟨ops, src', ps', h1, h2, h3, h4, h5, h6⟩ := ih prev _ ps k2 hps hrest hprev
        refine ⟨ops, src', ps', h1, h2, h3, h4, h5, ?_⟩
        intro psF hF
        rw [h6 psF hF, opsFlat, if_neg h0, if_neg]
        have : fidOf env psF comp l.file = ps.idxOf (SourceFiles.getPath env comp l.file) :=
          idxOf_of_prefix (h3.trans hF) hin
        rw [this, ← k1]
        simpa using hpr
      · rw [if_pos (by simpa using hpr), e2]
        simp only [Res.bind_ok]
        have hps' : ∀ p ∈ addNew ps (SourceFiles.getPath env comp l.file), p ∈ U := by
          intro p hp'
          rcases mem_addNew.mp hp' with hp' | rfl
          · exact hps p hp'
          · exact hp
        obtain ⟨ops, src', ps', h1, h2, h3, h4, h5, h6⟩ :=
          ih (some (l.line, (idOfRef env src comp l.file).1)) s' _ e3 hps' hrest (by
            intro n i hni
            simp only [Option.some.injEq, Prod.mk.injEq] at hni
            rw [← hni.2, e1]; exact hidlt)
        rw [h1]
        refine ⟨_, src', ps', rfl, h2, hpre.trans h3, h4, ?_, ?_⟩
        · intro op hop
          rcases List.mem_cons.mp hop with rfl | hop
          · exact Nat.lt_of_lt_of_le hidlt h3.length_le
          · exact h5 op hop
        · intro psF hF
          have hid := hidF psF (h3.trans hF)
          rw [opsFlat, if_neg h0, hid, ← e1, if_pos (by simpa using hpr), h6 psF hF]

/-- The calls made for a function, given the numberings. -/
def opsFor (env : CEnv) (inlines : Bool) (ps : List Str) (seen : List Name) (f : Func) : List LOp :=
  if inlines then opsRec env.us (fidOf env.src ps) (fun n => seen.idxOf n) 0 f
  else opsFlat (fidOf env.src ps) f.comp f.lines none

theorem functionOps_eq {env : CEnv} {mem : Mem} {U : List Str} {V : List Name} (hU : U.length ≤ M32)
    (hV : V.length ≤ M32) (hus : ∀ l r, r ∈ env.us l ↔ r ∈ l) {f : Func}
    (hf : f.All (RefOk env.src mem U) (fun n => n ∈ V)) (inlines : Bool)
    {src : SourceFiles} {org : InlineOrigins} {ps : List Str} {seen : List Name}
    (h : TablesOk env mem U V src org ps seen) :
    ∃ ops src' org' ps' seen', functionOps env inlines f src org = .ok (ops, src', org') ∧
      StepOk env mem U V ps seen ops src' org' ps' seen' ∧
      ∀ psF seenF, ps' <+: psF → seen' <+: seenF → ops = opsFor env inlines psF seenF f := by
  cases inlines with
  | true => exact collectRec_eq hU hV hus hf 0 src org ps seen h
  | false =>
    cases hf with
    | mk _ hl hn hi =>
      obtain ⟨ops, src', ps', h1, h2, h3, h4, h5, h6⟩ :=
        linesNoInlines_eq hU f.comp seen.length f.lines none src ps h.src h.inU hl (by simp)
      refine ⟨ops, src', org, ps', seen, ?_, ⟨⟨h2, h4, h.org, h.inV⟩, h3, List.prefix_refl _, h5⟩, ?_⟩
      · unfold functionOps collectWithoutInlines
        simp [h1]
      · intro psF seenF hF _
        rw [h6 psF hF]; rfl

/-- The ids in a `Lines` value are below the given bounds. -/
def Lines.IdsBelow (nf no : Nat) (L : Lines) : Prop :=
  (∀ l ∈ L.lines, l.fileId < nf) ∧ ∀ e ∈ L.inlines, e.1.callFile < nf ∧ e.1.originId < no

theorem Lines.IdsBelow.mono {nf no nf' no' : Nat} (h1 : nf ≤ nf') (h2 : no ≤ no') {L : Lines} (h : L.IdsBelow nf no) :
    L.IdsBelow nf' no' :=
  ⟨fun l hl => Nat.lt_of_lt_of_le (h.1 l hl) h1,
   fun e he => ⟨Nat.lt_of_lt_of_le (h.2 e he).1 h1, Nat.lt_of_lt_of_le (h.2 e he).2 h2⟩⟩

/-- `finalize` as a total function (it never fails: `finalize_eq`). -/
def Lines.finalized (s : Lines) (a b : Nat) : Lines :=
  { s.ensureOrder with lines := setLens a b s.ensureOrder.lines }

theorem Lines.finalized_below {nf no : Nat} {ops : List LOp} (h : ∀ op ∈ ops, op.IdsBelow nf no) (a b : Nat) :
    ((run ops).finalized a b).IdsBelow nf no := by
  constructor
  · intro l hl
    have : l.triple ∈ ((run ops).finalized a b).lines.map Line.triple := List.mem_map.mpr ⟨l, hl, rfl⟩
    unfold finalized at this
    simp only [setLens_triple, ensureOrder_run_lines] at this
    rw [((isort_perm _ (run ops).lines).map Line.triple).mem_iff, run_lines, List.map_map, List.mem_map] at this
    obtain ⟨t, ht, htl⟩ := this
    unfold lineEntries at ht
    rw [List.mem_filterMap] at ht
    obtain ⟨op, hop, he⟩ := ht
    cases op with
    | line r n f =>
      have := h _ hop
      simp only [Option.some.injEq] at he
      subst he
      simp only [Function.comp, Line.triple, Prod.mk.injEq] at htl
      rw [← htl.2.2]; exact this
    | inl s q => simp at he
  · intro e he
    unfold finalized at he
    simp only [ensureOrder_inlines, List.mem_map] at he
    obtain ⟨e', he', rfl⟩ := he
    simp only
    have hg := SMap.get?_of_mem (k := e'.1) (v := e'.2) (run_inlines_sorted ops) he'
    rw [run_inlines_get] at hg
    split at hg
    · simp at hg
    · rename_i hne
      obtain ⟨q, hq⟩ := List.exists_mem_of_ne_nil _ hne
      unfold rangesOf at hq
      rw [List.mem_filterMap] at hq
      obtain ⟨op, hop, he⟩ := hq
      cases op with
      | line r n f => simp at he
      | inl s q' =>
        have := h _ hop
        by_cases hs : s = e'.1
        · subst hs; exact this
        · simp [hs] at he

/-- The symbol of a function. -/
def funcSymbol (env : CEnv) (f : Func) (L : Lines) (multiple : Bool) : Symbol where
  name := demangle env f.name
  isPublic := false
  isMultiple := multiple
  isSynthetic := false
  rva := u32 f.address
  len := u32 f.size
  parameterSize := 0
  source := L

/-- What the functions at an address turn the entry at that address into. -/
def expectSym (env : CEnv) (inlines : Bool) (ps : List Str) (seen : List Name) (cur : Option Symbol) (fs : List Func) :
    Option Symbol :=
  match fs with
  | [] => cur
  | f :: rest =>
    match cur with
    | some sym =>
      if sym.isPublic then
        some (funcSymbol env f ((Lines.run (opsFor env inlines ps seen f)).finalized (u32 f.address) (u32 f.size))
          (!rest.isEmpty))
      else some { sym with isMultiple := true }
    | none =>
      some (funcSymbol env f ((Lines.run (opsFor env inlines ps seen f)).finalized (u32 f.address) (u32 f.size))
        (!rest.isEmpty))

theorem expectSym_func {env : CEnv} {inlines : Bool} {ps : List Str} {seen : List Name} {f : Func} {L : Lines} {m : Bool}
    {fs : List Func} :
    expectSym env inlines ps seen (some (funcSymbol env f L m)) fs = some (funcSymbol env f L (m || !fs.isEmpty)) := by
  cases fs with
  | nil => simp [expectSym]
  | cons g gs => simp [expectSym, funcSymbol]

theorem funcsAt_none (fs : List (Option Func)) (a : Nat) : funcsAt (none :: fs) a = funcsAt fs a := rfl

theorem funcsAt_some (f : Func) (fs : List (Option Func)) (a : Nat) :
    funcsAt (some f :: fs) a = if f.address ≠ 0 ∧ u32 f.address = a then f :: funcsAt fs a else funcsAt fs a := by
  unfold funcsAt
  simp only [List.filterMap_cons, id]
  rw [List.filter_cons]
  simp only [decide_eq_true_eq]

theorem collectFunctions_spec {env : CEnv} {mem : Mem} {U : List Str} {V : List Name} (inlines : Bool)
    (fs : List (Option Func)) :
    ∀ (st : State) (ps : List Str) (seen : List Name), InputOk env mem U V fs →
      TablesOk env mem U V st.src st.org ps seen → st.syms.Sorted →
      (∀ a sym, st.syms.get? a = some sym → sym.source.IdsBelow ps.length seen.length ∧ sym.rva = a) →
      ∃ st' ps' seen', collectFunctions env inlines fs st = .ok st' ∧
        TablesOk env mem U V st'.src st'.org ps' seen' ∧ ps <+: ps' ∧ seen <+: seen' ∧ st'.syms.Sorted ∧
        (∀ a sym, st'.syms.get? a = some sym → sym.source.IdsBelow ps'.length seen'.length ∧ sym.rva = a) ∧
        ∀ psF seenF, ps' <+: psF → seen' <+: seenF → ∀ a,
          st'.syms.get? a = expectSym env inlines psF seenF (st.syms.get? a) (funcsAt fs a) := by
  induction fs with
  | nil =>
    intro st ps seen hin ht hs hb
    exact ⟨st, ps, seen, rfl, ht, List.prefix_refl _, List.prefix_refl _, hs, hb, by intros; rfl⟩
  | cons o fs ih =>
    intro st ps seen hin ht hs hb
    have hin' : InputOk env mem U V fs := ⟨hin.paths, hin.names, hin.sort, fun f hf => hin.funcs f (by simp [hf])⟩
    cases o with
    | none => exact ih st ps seen hin' ht hs hb
    | some f =>
      simp only [collectFunctions, funcsAt_some]
      unfold collectFunction
      by_cases h0 : f.address = 0
      · simp only [h0, ne_eq, not_true, false_and, if_false, if_true, Res.bind_ok]
        exact ih st ps seen hin' ht hs hb
      · simp only [ne_eq, h0, not_false_eq_true, true_and]
        -- the case where a function is already there
        by_cases hfun : ∃ sym, st.syms.get? (u32 f.address) = some sym ∧ sym.isPublic = false
        · obtain ⟨sym, hg, hp⟩ := hfun
          have hmatch : existingFunc st.syms (u32 f.address) = some sym := by
            unfold existingFunc; rw [hg]; simp [hp]
          simp only [hmatch, if_false, Res.bind_ok]
          obtain ⟨hb1, hb2⟩ := hb _ _ hg
          obtain ⟨st', ps', seen', h1, h2, h3, h4, h5, h6, h7⟩ :=
            ih { st with syms := st.syms.insert (u32 f.address) { sym with isMultiple := true } } ps seen hin' ht
              (SMap.insert_sorted hs _ _) (by
                intro a s' hs'
                simp only at hs'
                rw [SMap.get?_insert _ _ _ hs] at hs'
                split at hs'
                · simp only [Option.some.injEq] at hs'
                  subst hs'
                  rename_i heq
                  exact ⟨hb1, heq ▸ hb2⟩
                · exact hb a s' hs')
          refine ⟨st', ps', seen', h1, h2, h3, h4, h5, h6, ?_⟩
          intro psF seenF hF hF' a
          rw [h7 psF seenF hF hF' a]
          simp only
          rw [SMap.get?_insert _ _ _ hs]
          by_cases ha : u32 f.address = a
          · rw [if_pos ha, if_pos ha]
            rw [ha] at hg
            simp only [expectSym, hg, hp, Bool.false_eq_true, if_false]
            split <;> simp
          · rw [if_neg ha, if_neg ha]
        · have hmatch : existingFunc st.syms (u32 f.address) = none := by
            unfold existingFunc
            cases hg : st.syms.get? (u32 f.address) with
            | none => rfl
            | some sym =>
              by_cases hp : sym.isPublic = true
              · simp [hp]
              · exact absurd ⟨sym, hg, by simpa using hp⟩ hfun
          simp only [hmatch, if_false]
          obtain ⟨ops, src1, org1, ps1, seen1, e1, e2, e3⟩ :=
            functionOps_eq hin.paths hin.names (fun l _ => (hin.sort l).1.mem_iff) (hin.funcs f (by simp)) inlines ht
          simp only [e1, Res.bind_ok, Lines.finalize_eq]
          obtain ⟨st', ps', seen', h1, h2, h3, h4, h5, h6, h7⟩ :=
            ih { syms := st.syms.insert (u32 f.address)
                  (funcSymbol env f ((Lines.run ops).finalized (u32 f.address) (u32 f.size)) false)
                 src := src1, org := org1 } ps1 seen1 hin' e2.tables (SMap.insert_sorted hs _ _) (by
              intro a s' hs'
              simp only at hs'
              rw [SMap.get?_insert _ _ _ hs] at hs'
              split at hs'
              · simp only [Option.some.injEq] at hs'
                subst hs'
                exact ⟨Lines.finalized_below e2.below _ _, by assumption⟩
              · obtain ⟨b1, b2⟩ := hb a s' hs'
                exact ⟨b1.mono e2.psExt.length_le e2.seenExt.length_le, b2⟩)
          refine ⟨st', ps', seen', h1, h2, e2.psExt.trans h3, e2.seenExt.trans h4, h5, h6, ?_⟩
          intro psF seenF hF hF' a
          rw [h7 psF seenF hF hF' a]
          simp only
          rw [SMap.get?_insert _ _ _ hs]
          by_cases ha : u32 f.address = a
          · rw [if_pos ha, if_pos ha, expectSym_func, e3 psF seenF (h3.trans hF) (h4.trans hF')]
            unfold expectSym
            simp only [Bool.false_or]
            rw [ha] at hfun
            cases hg : st.syms.get? a with
            | none => rfl
            | some sym =>
              by_cases hp : sym.isPublic = true
              · simp [hp]
              · exact absurd ⟨sym, hg, by simpa using hp⟩ hfun
          · rw [if_neg ha, if_neg ha]

end DumpSyms
