import Verif.Model.Collector
import Verif.Spec.Inline
import Verif.Proof.Source
import Verif.Proof.SourcePath
import Verif.Props.InlineOrigins
/-!
# The collector without its tables

`opsRec` computes the calls made on `Lines` for a function tree from given file and origin numberings, through a list
of events per function.  `collectRec_eq` shows that the collector makes exactly these calls, for the final numberings.
-/
namespace DumpSyms
open Collector

theorem refOk_iff {env : SrcEnv} {mem : Mem} {U : List Str} {c : ByteSlice} {f : FileInfo} : RefOk env mem U c f ↔
    Faithful mem c f ∧ SourceFiles.getPath env c f ∈ U ∧ env.mapPanics (SourceFiles.getPath env c f) = false := by
  unfold RefOk
  simp only [records_iff, exists_eq_left]

/-- What happens along a function's addresses: own code (`self`) or an inlined range (`call`), each with the line number
and file id of the line record it belongs to. -/
inductive Ev where
  | self (start stop num file : Nat)
  | call (r : IRange64) (num file : Nat)
  deriving DecidableEq, Repr

structure EvOut where
  evs : List Ev
  cur : Nat
  rest : List IRange64

/-- Events of one line record. -/
def evLine (num file lineEnd : Nat) : List IRange64 → Nat → EvOut
  | [], cur =>
    if cur < lineEnd then ⟨[.self cur lineEnd num file], lineEnd, []⟩ else ⟨[], cur, []⟩
  | r :: rest, cur =>
    if cur < lineEnd then
      let me := if r.start > cur then [Ev.self cur (min r.start lineEnd) num file] else []
      if r.start < lineEnd then
        let out := evLine num file lineEnd rest r.stop
        ⟨me ++ .call r num file :: out.evs, out.cur, out.rest⟩
      else ⟨me, lineEnd, r :: rest⟩
    else ⟨[], cur, r :: rest⟩

/-- Events of a function. -/
def evLines (fid : ByteSlice → FileInfo → Nat) (comp : ByteSlice) :
    List LineInfo → Nat → List IRange64 → List Ev
  | [], _, _ => []
  | l :: ls, skipTo, inl =>
    if l.address < skipTo then evLines fid comp ls skipTo inl
    else
      let out := evLine (u32 l.line) (fid comp l.file) l.endAddr inl l.address
      out.evs ++ evLines fid comp ls out.cur out.rest

/-- The calls for a list of events; own code with the same line and file as just before adds nothing. -/
def emit (depth : Nat) : List Ev → Option (Nat × Nat) → List LOp
  | [], _ => []
  | .self s _ n f :: es, prev =>
    if prev ≠ some (n, f) then .line (u32 s) n f :: emit depth es (some (n, f)) else emit depth es prev
  | .call r n f :: es, _ => inlineOp depth n f r :: emit depth es none

/-- `prev_line_info` after a list of events. -/
def emitPrev : List Ev → Option (Nat × Nat) → Option (Nat × Nat)
  | [], prev => prev
  | .self _ _ n f :: es, _ => emitPrev es (some (n, f))
  | .call _ _ _ :: es, _ => emitPrev es none

theorem emit_append (depth : Nat) (xs ys : List Ev) (prev : Option (Nat × Nat)) :
    emit depth (xs ++ ys) prev = emit depth xs prev ++ emit depth ys (emitPrev xs prev) := by
  induction xs generalizing prev with
  | nil => rfl
  | cons e xs ih =>
    cases e with
    | self s t n f =>
      simp only [List.cons_append, emit, emitPrev]
      by_cases h : prev = some (n, f)
      · simp [h, ih]
      · simp [h, ih]
    | call r n f => simp [emit, emitPrev, ih]

theorem walkLine_eq (depth num file lineEnd : Nat) (inl : List IRange64) :
    ∀ (cur : Nat) (prev : Option (Nat × Nat)),
      walkLine depth num file lineEnd inl cur prev =
        { cur := (evLine num file lineEnd inl cur).cur
          rest := (evLine num file lineEnd inl cur).rest
          prev := emitPrev (evLine num file lineEnd inl cur).evs prev
          ops := emit depth (evLine num file lineEnd inl cur).evs prev } := by
  induction inl with
  | nil =>
    intro cur prev
    unfold walkLine evLine
    by_cases h : cur < lineEnd
    · by_cases hp : prev = some (num, file)
      · simp [h, selfLine, emit, emitPrev, hp]
      · simp [h, selfLine, emit, emitPrev, hp]
    · simp [h, emit, emitPrev]
  | cons r rest ih =>
    intro cur prev
    unfold walkLine evLine
    by_cases h : cur < lineEnd
    · simp only [if_pos h]
      by_cases hr : r.start < lineEnd
      · simp only [if_pos hr, ih]
        by_cases hs : r.start > cur
        · by_cases hp : prev = some (num, file)
          · simp [selfLine, hs, hp, emit, emitPrev]
          · simp [selfLine, hs, hp, emit, emitPrev]
        · simp [selfLine, hs, emit, emitPrev]
      · simp only [if_neg hr]
        by_cases hs : r.start > cur
        · by_cases hp : prev = some (num, file)
          · simp [selfLine, hs, hp, emit, emitPrev]
          · simp [selfLine, hs, hp, emit, emitPrev]
        · omega
    · simp [h, emit, emitPrev]

mutual
/-- The calls made for a function tree, given the numberings. -/
def opsRec (us : List IRange64 → List IRange64) (fid : ByteSlice → FileInfo → Nat) (oid : Name → Nat) (depth : Nat)
    (f : Func) : List LOp :=
  match f with
  | .mk _ _ _ comp lines inl =>
    opsInl us fid oid depth inl ++
      emit depth (evLines fid comp lines 0 (us (inl.flatMap fun g => inlineeRanges g (oid g.name)))) none
  termination_by structural f

def opsInl (us : List IRange64 → List IRange64) (fid : ByteSlice → FileInfo → Nat) (oid : Name → Nat) (depth : Nat)
    (fs : List Func) : List LOp :=
  match fs with
  | [] => []
  | g :: gs => (if g.lines = [] then [] else opsRec us fid oid (depth + 1) g) ++ opsInl us fid oid depth gs
  termination_by structural fs
end

/-- The ids in a call are below the given bounds. -/
def LOp.IdsBelow (nf no : Nat) : LOp → Prop
  | .line _ _ f => f < nf
  | .inl site _ => site.callFile < nf ∧ site.originId < no

theorem LOp.IdsBelow.mono {nf no nf' no' : Nat} (h1 : nf ≤ nf') (h2 : no ≤ no') {op : LOp} (h : op.IdsBelow nf no) :
    op.IdsBelow nf' no' := by
  cases op with
  | line => exact Nat.lt_of_lt_of_le h h1
  | inl => exact ⟨Nat.lt_of_lt_of_le h.1 h1, Nat.lt_of_lt_of_le h.2 h2⟩

/-- Numbering by position in a list of paths. -/
def fidOf (env : SrcEnv) (ps : List Str) (c : ByteSlice) (f : FileInfo) : Nat :=
  ps.idxOf (SourceFiles.getPath env c f)

theorem fresh_room {ps U : List Str} (hn : ps.Nodup) (hU : U.length ≤ M32) (hps : ∀ p ∈ ps, p ∈ U) {p : Str} (hp : p ∈ U) :
    p ∈ ps ∨ ps.length < M32 := by
  by_cases h : p ∈ ps
  · exact .inl h
  · exact .inr (Nat.lt_of_lt_of_le (length_lt_of_nodup hn hps h hp) hU)

theorem evLine_below {num file lineEnd nf : Nat} (hf : file < nf) (depth no : Nat) (inl : List IRange64) :
    ∀ (cur : Nat) (prev : Option (Nat × Nat)), (∀ r ∈ inl, r.origin < no) →
      (∀ op ∈ emit depth (evLine num file lineEnd inl cur).evs prev, op.IdsBelow nf no) ∧
      (∀ r ∈ (evLine num file lineEnd inl cur).rest, r ∈ inl) := by
  have key : ∀ (inl : List IRange64) (cur : Nat),
      (∀ e ∈ (evLine num file lineEnd inl cur).evs,
        (∃ s t, e = .self s t num file) ∨ ∃ r ∈ inl, e = .call r num file) ∧
      (∀ r ∈ (evLine num file lineEnd inl cur).rest, r ∈ inl) := by
    intro inl
    induction inl with
    | nil =>
      intro cur; unfold evLine
      split <;> simp
    | cons r rest ih =>
      intro cur
      unfold evLine
      by_cases hcur : cur < lineEnd
      · simp only [if_pos hcur]
        by_cases hr : r.start < lineEnd
        · simp only [if_pos hr]
          obtain ⟨h1, h2⟩ := ih r.stop
          constructor
          · intro e he
            simp only [List.mem_append, List.mem_cons] at he
            rcases he with he | rfl | he
            · by_cases hs : r.start > cur
              · simp [if_pos hs] at he; exact .inl ⟨_, _, he⟩
              · simp [if_neg hs] at he
            · exact .inr ⟨r, by simp, rfl⟩
            · rcases h1 e he with h | ⟨r', hr', rfl⟩
              · exact .inl h
              · exact .inr ⟨r', by simp [hr'], rfl⟩
          · intro r' hr'; simp [h2 r' hr']
        · simp only [if_neg hr]
          constructor
          · intro e he
            by_cases hs : r.start > cur
            · simp [if_pos hs] at he; exact .inl ⟨_, _, he⟩
            · simp [if_neg hs] at he
          · intro r' hr'; exact hr'
      · simp [if_neg hcur]
  have emitKey : ∀ (es : List Ev) (prev : Option (Nat × Nat)),
      (∀ e ∈ es, (∃ s t, e = .self s t num file) ∨ ∃ r : IRange64, r.origin < no ∧ e = .call r num file) →
      ∀ op ∈ emit depth es prev, op.IdsBelow nf no := by
    intro es
    induction es with
    | nil => intro _ _ op h; simp [emit] at h
    | cons e es ih =>
      intro prev h op hop
      have he := h e (by simp)
      have hes : ∀ e ∈ es, _ := fun e' he' => h e' (by simp [he'])
      rcases he with ⟨s, t, rfl⟩ | ⟨r, hr, rfl⟩
      · simp only [emit] at hop
        split at hop
        · rcases List.mem_cons.mp hop with rfl | hop
          · exact hf
          · exact ih _ hes op hop
        · exact ih _ hes op hop
      · simp only [emit, List.mem_cons] at hop
        rcases hop with rfl | hop
        · exact ⟨hf, hr⟩
        · exact ih _ hes op hop
  intro cur prev hr
  refine ⟨?_, (key inl cur).2⟩
  apply emitKey
  intro e he
  rcases (key inl cur).1 e he with h | ⟨r, hr', rfl⟩
  · exact .inl h
  · exact .inr ⟨r, hr r hr', rfl⟩

theorem walkLines_eq {env : SrcEnv} {mem : Mem} {U : List Str} (hU : U.length ≤ M32) (comp : ByteSlice) (depth no : Nat)
    (lines : List LineInfo) :
    ∀ (skipTo : Nat) (inl : List IRange64) (prev : Option (Nat × Nat)) (src : SourceFiles) (ps : List Str),
      SrcSettled env mem src ps → (∀ p ∈ ps, p ∈ U) → (∀ l ∈ lines, RefOk env mem U comp l.file) →
      (∀ r ∈ inl, r.origin < no) →
      ∃ ops src' ps', walkLines env comp depth lines skipTo inl prev src = .ok (ops, src') ∧
        SrcSettled env mem src' ps' ∧ ps <+: ps' ∧ (∀ p ∈ ps', p ∈ U) ∧
        (∀ op ∈ ops, op.IdsBelow ps'.length no) ∧
        ∀ psF, ps' <+: psF → ops = emit depth (evLines (fidOf env psF) comp lines skipTo inl) prev := by
  induction lines with
  | nil =>
    intro skipTo inl prev src ps h hps _ _
    exact ⟨[], src, ps, rfl, h, List.prefix_refl _, hps, by simp, by intros; rfl⟩
  | cons l ls ih =>
    intro skipTo inl prev src ps h hps href hor
    have hrest : ∀ l ∈ ls, RefOk env mem U comp l.file := fun l hl => href l (by simp [hl])
    unfold walkLines
    by_cases hskip : l.address < skipTo
    · simp only [if_pos hskip]
      obtain ⟨ops, src', ps', h1, h2, h3, h4, h5, h6⟩ := ih skipTo inl prev src ps h hps hrest hor
      refine ⟨ops, src', ps', h1, h2, h3, h4, h5, ?_⟩
      intro psF hF
      rw [h6 psF hF, evLines, if_pos hskip]
    · simp only [if_neg hskip]
      obtain ⟨hf, hp, hm⟩ := refOk_iff.mp (href l (by simp))
      obtain ⟨h1, s', h2, h3⟩ := fileId_settled h hf (fresh_room h.nodup hU hps hp)
      rw [getId_eq hm]
      simp only [Res.bind_ok]
      rw [h2]
      simp only [Res.bind_ok]
      rw [walkLine_eq]
      have hps' : ∀ p ∈ addNew ps (SourceFiles.getPath env comp l.file), p ∈ U := by
        intro p hp'
        rcases mem_addNew.mp hp' with hp' | rfl
        · exact hps p hp'
        · exact hp
      have hidlt := List.idxOf_lt_length_of_mem (mem_addNew_self ps (SourceFiles.getPath env comp l.file))
      have hb := evLine_below (num := u32 l.line) (lineEnd := l.endAddr) hidlt depth no inl l.address prev hor
      obtain ⟨ops, src', ps', e1, e2, e3, e4, e5, e6⟩ :=
        ih _ (evLine (u32 l.line) ((addNew ps (SourceFiles.getPath env comp l.file)).idxOf
            (SourceFiles.getPath env comp l.file)) l.endAddr inl l.address).rest
          (emitPrev (evLine (u32 l.line) ((addNew ps (SourceFiles.getPath env comp l.file)).idxOf
            (SourceFiles.getPath env comp l.file)) l.endAddr inl l.address).evs prev) s' _ h3 hps' hrest
          (fun r hr => hor r (hb.2 r hr))
      rw [e1]
      refine ⟨_, src', ps', rfl, e2, (addNew_prefix ..).trans e3, e4, ?_, ?_⟩
      · intro op hop
        rcases List.mem_append.mp hop with hop | hop
        · exact (hb.1 op hop).mono e3.length_le (Nat.le_refl _)
        · exact e5 op hop
      · intro psF hF
        have hid : fidOf env psF comp l.file = (addNew ps (SourceFiles.getPath env comp l.file)).idxOf
            (SourceFiles.getPath env comp l.file) :=
          idxOf_of_prefix (e3.trans hF) (mem_addNew_self ..)
        rw [evLines, if_neg hskip, hid, emit_append, e6 psF hF]

/-- The tables at some point of a collection. -/
structure TablesOk (env : CEnv) (mem : Mem) (U : List Str) (V : List Name) (src : SourceFiles) (org : InlineOrigins)
    (ps : List Str) (seen : List Name) : Prop where
  src : SrcSettled env.src mem src ps
  inU : ∀ p ∈ ps, p ∈ U
  org : OriginsInv env.dm org seen
  inV : ∀ n ∈ seen, n ∈ V

/-- What a step of the collection guarantees. -/
structure StepOk (env : CEnv) (mem : Mem) (U : List Str) (V : List Name) (ps : List Str) (seen : List Name)
    (ops : List LOp) (src' : SourceFiles) (org' : InlineOrigins) (ps' : List Str) (seen' : List Name) : Prop where
  tables : TablesOk env mem U V src' org' ps' seen'
  psExt : ps <+: ps'
  seenExt : seen <+: seen'
  below : ∀ op ∈ ops, op.IdsBelow ps'.length seen'.length

theorem origin_step {env : CEnv} {V : List Name} {org : InlineOrigins} {seen : List Name} (hV : V.length ≤ M32)
    (h : OriginsInv env.dm org seen) (hseen : ∀ n ∈ seen, n ∈ V) {n : Name} (hn : n ∈ V) :
    (InlineOrigins.getId env.dm org n).1 = (addNew seen n).idxOf n ∧
    OriginsInv env.dm (InlineOrigins.getId env.dm org n).2 (addNew seen n) := by
  by_cases hm : n ∈ seen
  · unfold InlineOrigins.getId
    rw [h.lookup n, if_pos hm]
    have : addNew seen n = seen := by unfold addNew; rw [if_pos hm]
    rw [this]
    exact ⟨rfl, h⟩
  · have hlt := Nat.lt_of_lt_of_le (length_lt_of_nodup h.nodup hseen hm hn) hV
    obtain ⟨h1, h2⟩ := getId_inv h hlt n
    rw [if_neg hm] at h1 h2
    have : addNew seen n = seen ++ [n] := by unfold addNew; rw [if_neg hm]
    rw [this]
    exact ⟨h1, h2⟩

/-- The statement proved by induction on the function tree. -/
def RecOk (env : CEnv) (mem : Mem) (U : List Str) (V : List Name) (f : Func) : Prop :=
  ∀ (depth : Nat) (src : SourceFiles) (org : InlineOrigins) (ps : List Str) (seen : List Name),
    TablesOk env mem U V src org ps seen →
    ∃ ops src' org' ps' seen', collectRec env depth f src org = .ok (ops, src', org') ∧
      StepOk env mem U V ps seen ops src' org' ps' seen' ∧
      ∀ psF seenF, ps' <+: psF → seen' <+: seenF →
        ops = opsRec env.us (fidOf env.src psF) (fun n => seenF.idxOf n) depth f

theorem collectInlinees_eq {env : CEnv} {mem : Mem} {U : List Str} {V : List Name} (hV : V.length ≤ M32)
    (gs : List Func) (hg : ∀ g ∈ gs, g.name ∈ V ∧ RecOk env mem U V g) :
    ∀ (depth : Nat) (src : SourceFiles) (org : InlineOrigins) (ps : List Str) (seen : List Name),
    TablesOk env mem U V src org ps seen →
    ∃ ranges ops src' org' ps' seen', collectInlinees env depth gs src org = .ok (ranges, ops, src', org') ∧
      StepOk env mem U V ps seen ops src' org' ps' seen' ∧
      (∀ r ∈ ranges, r.origin < seen'.length) ∧
      ∀ psF seenF, ps' <+: psF → seen' <+: seenF →
        ops = opsInl env.us (fidOf env.src psF) (fun n => seenF.idxOf n) depth gs ∧
        ranges = gs.flatMap fun g => inlineeRanges g (seenF.idxOf g.name) := by
  induction gs with
  | nil =>
    intro depth src org ps seen h
    exact ⟨[], [], src, org, ps, seen, rfl, ⟨h, List.prefix_refl _, List.prefix_refl _, by simp⟩, by simp,
      by intros; exact ⟨rfl, rfl⟩⟩
  | cons g gs ih =>
    intro depth src org ps seen h
    have ih := ih (fun g hg' => hg g (by simp [hg']))
    by_cases hl : g.lines = []
    · obtain ⟨ranges, ops, src', org', ps', seen', h1, h2, h3, h4⟩ := ih depth src org ps seen h
      refine ⟨ranges, ops, src', org', ps', seen', ?_, h2, h3, ?_⟩
      · rw [collectInlinees, if_pos hl]; exact h1
      · intro psF seenF hF hF'
        obtain ⟨a, b⟩ := h4 psF seenF hF hF'
        rw [opsInl, if_pos hl, List.nil_append, List.flatMap_cons, ← b]
        exact ⟨a, by simp [inlineeRanges, hl]⟩
    · obtain ⟨hn, hrec⟩ := hg g (by simp)
      obtain ⟨o1, o2⟩ := origin_step hV h.org h.inV hn
      have ht : TablesOk env mem U V src (InlineOrigins.getId env.dm org g.name).2 ps (addNew seen g.name) :=
        ⟨h.src, h.inU, o2, by
          intro n hn'
          rcases mem_addNew.mp hn' with hn' | rfl
          · exact h.inV n hn'
          · exact hn⟩
      obtain ⟨ops1, src1, org1, ps1, seen1, a1, a2, a3⟩ := hrec (depth + 1) src _ ps _ ht
      obtain ⟨ranges, ops2, src2, org2, ps2, seen2, b1, b2, b3, b4⟩ := ih depth src1 org1 ps1 seen1 a2.tables
      have hext : addNew seen g.name <+: seen2 := a2.seenExt.trans b2.seenExt
      have hid : ∀ seenF, seen2 <+: seenF → seenF.idxOf g.name = (addNew seen g.name).idxOf g.name :=
        fun seenF hF => idxOf_of_prefix (hext.trans hF) (mem_addNew_self ..)
      refine ⟨inlineeRanges g (InlineOrigins.getId env.dm org g.name).1 ++ ranges, ops1 ++ ops2, src2, org2, ps2, seen2,
        ?_, ⟨b2.tables, a2.psExt.trans b2.psExt, (addNew_prefix ..).trans hext, ?_⟩, ?_, ?_⟩
      · rw [collectInlinees, if_neg hl]
        simp only [a1, Res.bind_ok, b1]
      · intro op hop
        rcases List.mem_append.mp hop with hop | hop
        · exact (a2.below op hop).mono b2.psExt.length_le b2.seenExt.length_le
        · exact b2.below op hop
      · intro r hr
        rcases List.mem_append.mp hr with hr | hr
        · unfold inlineeRanges at hr
          rw [List.mem_map] at hr
          obtain ⟨l, _, rfl⟩ := hr
          simp only
          rw [o1]
          exact Nat.lt_of_lt_of_le (List.idxOf_lt_length_of_mem (mem_addNew_self ..)) hext.length_le
        · exact b3 r hr
      · intro psF seenF hF hF'
        obtain ⟨c1, c2⟩ := b4 psF seenF hF hF'
        rw [opsInl, if_neg hl, List.flatMap_cons, ← c2, ← c1, hid seenF hF', o1]
        exact ⟨by rw [a3 psF seenF (b2.psExt.trans hF) (b2.seenExt.trans hF')], rfl⟩

theorem collectRec_eq {env : CEnv} {mem : Mem} {U : List Str} {V : List Name} (hU : U.length ≤ M32)
    (hV : V.length ≤ M32) (hus : ∀ l r, r ∈ env.us l ↔ r ∈ l) {f : Func}
    (hf : f.All (RefOk env.src mem U) (fun n => n ∈ V)) : RecOk env mem U V f := by
  induction hf with
  | mk f hl hn hi ih =>
    intro depth src org ps seen h
    obtain ⟨addr, size, name, comp, lines, inl⟩ := f
    obtain ⟨ranges, ops1, src1, org1, ps1, seen1, a1, a2, a3, a4⟩ :=
      collectInlinees_eq hV inl (fun g hg => ⟨hn g hg, ih g hg⟩) depth src org ps seen h
    obtain ⟨ops2, src2, ps2, b1, b2, b3, b4, b5, b6⟩ :=
      walkLines_eq hU comp depth seen1.length lines 0 (env.us ranges) none src1 ps1 a2.tables.src a2.tables.inU hl
        (fun r hr => a3 r ((hus _ _).mp hr))
    refine ⟨ops1 ++ ops2, src2, org1, ps2, seen1, ?_, ⟨⟨b2, b4, a2.tables.org, a2.tables.inV⟩, a2.psExt.trans b3,
      a2.seenExt, ?_⟩, ?_⟩
    · rw [collectRec]
      simp only [a1, Res.bind_ok, b1]
    · intro op hop
      rcases List.mem_append.mp hop with hop | hop
      · exact (a2.below op hop).mono b3.length_le (Nat.le_refl _)
      · exact b5 op hop
    · intro psF seenF hF hF'
      obtain ⟨c1, c2⟩ := a4 psF seenF (b3.trans hF) hF'
      rw [opsRec, ← c1, b6 psF hF, c2]

end DumpSyms
