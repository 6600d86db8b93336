import Verif.Spec.Changes
/-!
# The inlines and the path mappings do not concern the FUNC and PUBLIC records
-/
namespace DumpSyms
open Collector ObjectInfo

/-! ## Symbols without records -/

namespace Symbols

theorem bare_get? (m : Symbols) (k : Nat) : m.bare.get? k = (m.get? k).map Symbol.bare := by
  induction m with
  | nil => rfl
  | cons e m ih =>
    obtain ⟨a, s⟩ := e
    show SMap.get? ((a, s.bare) :: bare m) k = _
    rw [SMap.get?_cons, SMap.get?_cons, ih]
    split <;> rfl

theorem bare_insert (m : Symbols) (k : Nat) (s : Symbol) : bare (m.insert k s) = (bare m).insert k s.bare := by
  induction m with
  | nil => rfl
  | cons e m ih =>
    obtain ⟨a, x⟩ := e
    have hb : bare ((a, x) :: m) = (a, x.bare) :: bare m := rfl
    rw [hb]
    unfold SMap.insert
    split
    · rfl
    · split
      · rfl
      · show (a, x.bare) :: bare (SMap.insert m k s) = _
        rw [ih]

theorem bare_isInside (m : Symbols) (a : Nat) : (bare m).isInsideSymbol a = m.isInsideSymbol a := by
  have h : (bare m).lastBelow a = (m.lastBelow a).map fun e => (e.1, e.2.bare) := by
    unfold lastBelow bare
    rw [List.filter_map, List.getLast?_map]
    rfl
  unfold isInsideSymbol
  rw [h]
  cases m.lastBelow a with
  | none => rfl
  | some e => rfl

theorem bare_orInsert (m : Symbols) (k : Nat) (s : Symbol) : bare (m.orInsert k s) = (bare m).orInsert k s.bare := by
  unfold orInsert
  rw [bare_get?]
  cases m.get? k with
  | none => exact bare_insert m k s
  | some x => rfl

theorem bare_sections (name : Str) (hs : List Section) (m m' : Symbols) (h : bare m = bare m') :
    bare (addSections name hs m) = bare (addSections name hs m') := by
  induction hs generalizing m m' with
  | nil => exact h
  | cons x xs ih =>
    unfold addSections
    apply ih
    split
    · rw [bare_orInsert, bare_orInsert, h]
    · exact h

theorem bare_dummy (name : Str) (m m' : Symbols) (h : bare m = bare m') : bare (appendDummy m name) = bare (appendDummy m' name) := by
  have hl : (m.getLast?).map (fun e => (e.1, e.2.bare)) = (m'.getLast?).map (fun e => (e.1, e.2.bare)) := by
    rw [← List.getLast?_map, ← List.getLast?_map]
    exact congrArg List.getLast? h
  unfold appendDummy
  cases h1 : m.getLast? with
  | none =>
    rw [h1] at hl
    cases h2 : m'.getLast? with
    | none => exact h
    | some e => rw [h2] at hl; cases hl
  | some e =>
    rw [h1] at hl
    cases h2 : m'.getLast? with
    | none => rw [h2] at hl; cases hl
    | some e' =>
      rw [h2] at hl
      obtain ⟨a, s⟩ := e
      obtain ⟨a', s'⟩ := e'
      simp only [Option.map_some, Option.some.injEq, Prod.mk.injEq, Symbol.bare, Symbol.mk.injEq] at hl
      obtain ⟨_, _, _, _, _, e1, e2, _⟩ := hl
      simp only [e1, e2, bare_orInsert, h]

theorem bare_executable (name : Str) (k : ObjKind) (m m' : Symbols) (h : bare m = bare m') :
    bare (addExecutableSectionSymbols m name k) = bare (addExecutableSectionSymbols m' name k) := by
  cases k with
  | elf hs => exact bare_sections name hs m m' h
  | pe => exact bare_dummy name m m' h
  | pdb => exact bare_dummy name m m' h
  | other => exact h

end Symbols

/-- If `x` succeeds then so does `y`, and the results are related. -/
def Res.Sim {α β : Type} (x : Res α) (y : Res β) (R : α → β → Prop) : Prop := ∀ a, x = .ok a → ∃ b, y = .ok b ∧ R a b

theorem Res.Sim.ok {α β : Type} {R : α → β → Prop} {a : α} {b : β} (h : R a b) : (Res.ok a).Sim (Res.ok b) R := by
  intro a' e; cases e; exact ⟨b, rfl, h⟩

theorem Res.Sim.panic {α β : Type} {R : α → β → Prop} {y : Res β} : (Res.panic : Res α).Sim y R := by
  intro a e; cases e

theorem Res.Sim.err {α β : Type} {R : α → β → Prop} {m : Str} {y : Res β} : (Res.err m : Res α).Sim y R := by
  intro a e; cases e

theorem Res.Sim.bind {α β γ δ : Type} {x : Res α} {y : Res β} {R : α → β → Prop} {f : α → Res γ} {g : β → Res δ} {S : γ → δ → Prop}
    (h : x.Sim y R) (hf : ∀ a b, R a b → (f a).Sim (g b) S) : (x >>= f).Sim (y >>= g) S := by
  intro c e
  cases x with
  | ok a =>
    obtain ⟨b, e1, h1⟩ := h a rfl
    rw [e1]
    exact hf a b h1 c e
  | err m => cases e
  | panic => cases e

theorem Res.Sim.mono {α β : Type} {x : Res α} {y : Res β} {R S : α → β → Prop} (h : x.Sim y R) (hs : ∀ a b, R a b → S a b) : x.Sim y S := by
  intro a e
  obtain ⟨b, h1, h2⟩ := h a e
  exact ⟨b, h1, hs a b h2⟩

namespace Collector

theorem bare_existing (m : Symbols) (a : Nat) : existingFunc m.bare a = (existingFunc m a).map Symbol.bare := by
  unfold existingFunc
  rw [Symbols.bare_get?]
  cases m.get? a with
  | none => rfl
  | some s =>
    show (if s.isPublic = true then none else some s.bare) = _
    simp only []
    split <;> rfl

/-- The symbol put at the address of a function, without its records. -/
def bareFunc (env : CEnv) (f : Func) : Symbol :=
  { name := demangle env f.name, isPublic := false, isMultiple := false, isSynthetic := false, rva := u32 f.address, len := u32 f.size,
    parameterSize := 0, source := Lines.default }

/-- What one function does to the symbols without records. -/
def bareStep (env : CEnv) (f : Func) (m : Symbols) : Symbols :=
  if f.address = 0 then m
  else match existingFunc m (u32 f.address) with
    | some s => m.insert (u32 f.address) { s with isMultiple := true }
    | none => m.insert (u32 f.address) (bareFunc env f)

theorem bare_function {env : CEnv} {inlines : Bool} {f : Func} {st st' : State} (h : collectFunction env inlines f st = .ok st') :
    st'.syms.bare = bareStep env f st.syms.bare := by
  unfold collectFunction at h
  unfold bareStep
  rw [bare_existing]
  split at h
  · cases h; rename_i hz; rw [if_pos hz]
  · rename_i hz
    rw [if_neg hz]
    split at h
    · rename_i s hs
      rw [hs]
      cases h
      exact Symbols.bare_insert _ _ _
    · rename_i hs
      rw [hs]
      cases h1 : functionOps env inlines f st.src st.org with
      | err m => rw [h1] at h; cases h
      | panic => rw [h1] at h; cases h
      | ok r =>
        obtain ⟨ops, src, org⟩ := r
        rw [h1] at h
        simp only [Res.bind_ok] at h
        cases h2 : (Lines.run ops).finalize (u32 f.address) (u32 f.size) with
        | err m => rw [h2] at h; cases h
        | panic => rw [h2] at h; cases h
        | ok ls =>
          rw [h2] at h
          cases h
          exact Symbols.bare_insert _ _ _

theorem bare_functions {e1 e2 : CEnv} (hdm : e1.dm = e2.dm) {i1 i2 : Bool} (fs : List (Option Func)) {s1 s2 t1 t2 : State}
    (h1 : collectFunctions e1 i1 fs s1 = .ok t1) (h2 : collectFunctions e2 i2 fs s2 = .ok t2) (h : s1.syms.bare = s2.syms.bare) :
    t1.syms.bare = t2.syms.bare := by
  induction fs generalizing s1 s2 with
  | nil => cases h1; cases h2; exact h
  | cons f fs ih =>
    cases f with
    | none => exact ih h1 h2 h
    | some f =>
      unfold collectFunctions at h1 h2
      cases k1 : collectFunction e1 i1 f s1 with
      | err m => rw [k1] at h1; cases h1
      | panic => rw [k1] at h1; cases h1
      | ok u1 =>
        cases k2 : collectFunction e2 i2 f s2 with
        | err m => rw [k2] at h2; cases h2
        | panic => rw [k2] at h2; cases h2
        | ok u2 =>
          rw [k1] at h1; rw [k2] at h2
          refine ih h1 h2 ?_
          have hstep : ∀ m, bareStep e1 f m = bareStep e2 f m := by
            intro m
            unfold bareStep bareFunc demangle
            rw [hdm]
          rw [bare_function k1, bare_function k2, h, hstep]

theorem bare_occupied (env : CEnv) (w : Option WinName) (s : Symbol) : (publicOccupied env w s).bare = publicOccupied env w s.bare := by
  obtain ⟨name, isPublic, _, _, _, _, _, _⟩ := s
  cases isPublic
  · cases w with
    | none => rfl
    | some w =>
      obtain ⟨n, k⟩ := w
      by_cases h : '(' ∈ name <;> cases k <;> simp [publicOccupied, Symbol.bare, h]
  · rfl

theorem bare_public {e1 e2 : CEnv} (hdm : e1.dm = e2.dm) (hdet : e1.detect = e2.detect) (pl : Platform) (p : Public) (m m' : Symbols)
    (h : m.bare = m'.bare) : (collectPublic e1 pl p m).Sim (collectPublic e2 pl p m') fun a b => a.bare = b.bare := by
  unfold collectPublic
  rw [← Symbols.bare_isInside m, ← Symbols.bare_isInside m', h]
  split
  · exact .ok h
  split
  · exact .ok h
  refine Res.Sim.bind (R := Eq) (fun a e => ⟨a, e, rfl⟩) ?_
  rintro w _ rfl
  refine .ok ?_
  have hd : ∀ n, demangleStr e1 n = demangleStr e2 n := by
    intro n; unfold demangleStr; rw [hdm, hdet]
  have henv : ∀ s, publicOccupied e1 w s = publicOccupied e2 w s := by
    intro s; unfold publicOccupied; simp only [hd]
  have ho : ∀ s, (publicOccupied e1 w s).bare = publicOccupied e2 w s.bare := by
    intro s; rw [henv, bare_occupied]
  have hv : (publicVacant e1 w p).bare = publicVacant e2 w p := by
    unfold publicVacant
    simp only [hd]
    rfl
  have hv2 : (publicVacant e2 w p).bare = publicVacant e2 w p := rfl
  have ho2 : ∀ s, (publicOccupied e2 w s).bare = publicOccupied e2 w s.bare := bare_occupied e2 w
  unfold putPublic
  have hg : (m.get? (u32 p.address)).map Symbol.bare = (m'.get? (u32 p.address)).map Symbol.bare := by
    rw [← Symbols.bare_get?, ← Symbols.bare_get?, h]
  cases h1 : m.get? (u32 p.address) with
  | none =>
    rw [h1] at hg
    cases h2 : m'.get? (u32 p.address) with
    | some x => rw [h2] at hg; cases hg
    | none => simp only [Symbols.bare_insert, h, hv, hv2]
  | some s =>
    rw [h1] at hg
    cases h2 : m'.get? (u32 p.address) with
    | none => rw [h2] at hg; cases hg
    | some x =>
      rw [h2] at hg
      simp only [Option.map_some, Option.some.injEq] at hg
      simp only [Symbols.bare_insert, h, ho, ho2, hg]

theorem bare_publics {e1 e2 : CEnv} (hdm : e1.dm = e2.dm) (hdet : e1.detect = e2.detect) (pl : Platform) (ps : List Public) (m m' : Symbols)
    (h : m.bare = m'.bare) : (collectPublics e1 pl ps m).Sim (collectPublics e2 pl ps m') fun a b => a.bare = b.bare := by
  induction ps generalizing m m' with
  | nil => exact .ok h
  | cons p ps ih =>
    unfold collectPublics
    exact (bare_public hdm hdet pl p m m' h).bind fun a b hab => ih a b hab

theorem bare_placeholders (name : Str) (es : List ExcEntry) (m m' : Symbols) (h : m.bare = m'.bare) :
    (collectPlaceholders name es m).bare = (collectPlaceholders name es m').bare := by
  induction es generalizing m m' with
  | nil => exact h
  | cons e es ih =>
    unfold collectPlaceholders
    apply ih
    unfold collectPlaceholder
    split
    · exact h
    · rw [← Symbols.bare_isInside m, ← Symbols.bare_isInside m', h]
      split
      · exact h
      · rw [Symbols.bare_orInsert, Symbols.bare_orInsert, h]

end Collector

namespace ObjectInfo

/-- Two dumps of one object with the same demangler differ only in the records. -/
theorem same_records {e1 e2 : CEnv} (hdm : e1.dm = e2.dm) (hdet : e1.detect = e2.detect) {i1 i2 : Bool} {pl : Platform} {main : ObjInput}
    {name : Str} {pe : Option ObjInput} {peName : Option Str} {o p : ObjectInfo} (h1 : fromObject e1 i1 pl main name pe peName = .ok o)
    (h2 : fromObject e2 i2 pl main name pe peName = .ok p) : o.SameButRecords p := by
  unfold fromObject at h1 h2
  cases hf : main.functions with
  | error m => rw [hf] at h1; cases h1
  | ok fs =>
    rw [hf] at h1 h2
    simp only at h1 h2
    cases c1 : collect e1 i1 pl main name peName fs with
    | err m => rw [c1] at h1; cases h1
    | panic => rw [c1] at h1; cases h1
    | ok s1 =>
      cases c2 : collect e2 i2 pl main name peName fs with
      | err m => rw [c2] at h2; cases h2
      | panic => rw [c2] at h2; cases h2
      | ok s2 =>
        rw [c1] at h1; rw [c2] at h2
        cases h1; cases h2
        refine ⟨?_, rfl, rfl, rfl, rfl, rfl, rfl, rfl, rfl⟩
        show s1.syms.bare = s2.syms.bare
        unfold collect at c1 c2
        cases d1 : collectFunctions e1 i1 fs State.new with
        | err m => rw [d1] at c1; cases c1
        | panic => rw [d1] at c1; cases c1
        | ok t1 =>
          cases d2 : collectFunctions e2 i2 fs State.new with
          | err m => rw [d2] at c2; cases c2
          | panic => rw [d2] at c2; cases c2
          | ok t2 =>
            rw [d1] at c1; rw [d2] at c2
            simp only [Res.bind_ok] at c1 c2
            have ht := bare_functions hdm fs d1 d2 rfl
            have hw : (withPlaceholders main name peName t1.syms).bare = (withPlaceholders main name peName t2.syms).bare := by
              unfold withPlaceholders
              split
              · split
                · exact bare_placeholders _ _ _ _ ht
                · exact ht
              · exact ht
            have hp := bare_publics hdm hdet pl main.publics _ _ hw
            cases f1 : collectPublics e1 pl main.publics (withPlaceholders main name peName t1.syms) with
            | err m => rw [f1] at c1; cases c1
            | panic => rw [f1] at c1; cases c1
            | ok u1 =>
              obtain ⟨u2, f2, hu⟩ := hp u1 f1
              rw [f1] at c1; rw [f2] at c2
              simp only [Res.bind_ok] at c1 c2
              have hm : (withMini e1 pl main u1).Sim (withMini e2 pl main u2) fun a b => a.bare = b.bare := by
                unfold withMini
                refine Res.Sim.bind (R := Eq) (fun a e => ⟨a, e, rfl⟩) ?_
                rintro ps _ rfl
                cases ps with
                | none => exact .ok hu
                | some ps => exact bare_publics hdm hdet pl ps _ _ hu
              cases g1 : withMini e1 pl main u1 with
              | err m => rw [g1] at c1; cases c1
              | panic => rw [g1] at c1; cases c1
              | ok v1 =>
                obtain ⟨v2, g2, hv⟩ := hm v1 g1
                rw [g1] at c1; rw [g2] at c2
                cases c1; cases c2
                exact Symbols.bare_executable _ _ _ _ hv

end ObjectInfo

/-! ## Without the path mapping -/

/-- The surroundings without path mapping. -/
def SrcEnv.unmapped (env : SrcEnv) : SrcEnv := { env with mapping := fun _ => none, mapPanics := fun _ => false }
def CEnv.unmapped (env : CEnv) : CEnv := { env with src := env.src.unmapped }

/-- What the path mapping makes of a path. -/
def SrcEnv.mapped (env : SrcEnv) (p : Str) : Str := (env.mapping p).getD p

namespace SourceFiles

/-- The tables with the paths mapped. -/
def mapped (env : SrcEnv) (s : SourceFiles) : SourceFiles :=
  { s with fakeIdToRef := s.fakeIdToRef.map (fun e => (e.1, env.mapped e.2)), idToRef := s.idToRef.map env.mapped }

/-- The path mapping does not panic for the paths in the tables (of a dump without path mapping). -/
def Calm (env : SrcEnv) (s : SourceFiles) : Prop :=
  (∀ e ∈ s.fakeIdToRef, env.mapPanics e.2 = false) ∧ ∀ p ∈ s.idToRef, env.mapPanics p = false

/-- The first result is the second with the paths mapped, for which the path mapping does not panic. -/
def Maps (env : SrcEnv) {α : Type} (a b : α × SourceFiles) : Prop := a = (b.1, b.2.mapped env) ∧ b.2.Calm env

theorem getPath_unmapped (env : SrcEnv) (c : ByteSlice) (f : FileInfo) : getPath env.unmapped c f = getPath env c f := rfl

theorem getIdOfPath_mapped (env : SrcEnv) (s : SourceFiles) (hs : s.Calm env) (p : Str) :
    (getIdOfPath env (s.mapped env) p).Sim (getIdOfPath env.unmapped s p) (Maps env) := by
  unfold getIdOfPath
  show Res.Sim (match s.refToId.lookup p with | some id => _ | none => _) (match s.refToId.lookup p with | some id => _ | none => _) _
  cases s.refToId.lookup p with
  | some id => exact .ok ⟨rfl, hs⟩
  | none =>
    simp only [SrcEnv.unmapped]
    split
    · exact .panic
    · rename_i hp
      refine .ok ⟨?_, ?_, hs.2⟩
      · simp [mapped, SrcEnv.mapped]
      · intro e he
        rcases List.mem_append.mp he with he | he
        · exact hs.1 e he
        · cases List.mem_singleton.mp he
          exact Bool.eq_false_iff.mpr hp

theorem getId_mapped (env : SrcEnv) (s : SourceFiles) (hs : s.Calm env) (c : ByteSlice) (f : FileInfo) :
    (getId env (s.mapped env) c f).Sim (getId env.unmapped s c f) (Maps env) := by
  unfold getId
  show Res.Sim (match s.cache.lookup (cacheKey c f) with | some id => _ | none => _) (match s.cache.lookup (cacheKey c f) with | some id => _ | none => _) _
  cases s.cache.lookup (cacheKey c f) with
  | some id => exact .ok ⟨rfl, hs⟩
  | none =>
    refine (getIdOfPath_mapped env s hs _).bind ?_
    rintro _ ⟨id, t⟩ ⟨rfl, ht⟩
    exact .ok ⟨rfl, ht⟩

theorem getTrueId_mapped (env : SrcEnv) (s : SourceFiles) (hs : s.Calm env) (i : Nat) :
    (getTrueId (s.mapped env) i).Sim (getTrueId s i) (Maps env) := by
  unfold getTrueId
  have h : (s.mapped env).fakeIdToRef[i]? = (s.fakeIdToRef[i]?).map fun e => (e.1, env.mapped e.2) := by simp [mapped]
  rw [h]
  cases hi : s.fakeIdToRef[i]? with
  | none => exact .panic
  | some e =>
    obtain ⟨_ | id, n⟩ := e
    · have hn := hs.1 _ (List.mem_of_getElem? hi)
      refine .ok ⟨?_, ?_, ?_⟩
      · simp [mapped, List.map_set]
      · intro e he
        rcases List.mem_or_eq_of_mem_set he with he | rfl
        · exact hs.1 e he
        · exact hn
      · intro p hp
        rcases List.mem_append.mp hp with hp | hp
        · exact hs.2 p hp
        · cases List.mem_singleton.mp hp
          exact hn
    · exact .ok ⟨rfl, hs⟩

end SourceFiles

namespace Collector
open SourceFiles

theorem linesNoInlines_mapped (env : SrcEnv) (c : ByteSlice) (ls : List LineInfo) (prev : Option (Nat × Nat)) (s : SourceFiles) (hs : s.Calm env) :
    (linesNoInlines env c ls prev (s.mapped env)).Sim (linesNoInlines env.unmapped c ls prev s) (Maps env) := by
  induction ls generalizing prev s with
  | nil => exact .ok ⟨rfl, hs⟩
  | cons l ls ih =>
    unfold linesNoInlines
    split
    · exact ih prev s hs
    · refine (getId_mapped env s hs c l.file).bind ?_
      rintro _ ⟨id, t⟩ ⟨rfl, ht⟩
      dsimp only
      split
      · refine (getTrueId_mapped env t ht id).bind ?_
        rintro _ ⟨tid, u⟩ ⟨rfl, hu⟩
        refine (ih _ u hu).bind ?_
        rintro _ ⟨ops, v⟩ ⟨rfl, hv⟩
        exact .ok ⟨rfl, hv⟩
      · exact ih prev t ht

theorem walkLines_mapped (env : SrcEnv) (c : ByteSlice) (depth : Nat) (ls : List LineInfo) (k : Nat) (inl : List IRange64) (prev : Option (Nat × Nat))
    (s : SourceFiles) (hs : s.Calm env) :
    (walkLines env c depth ls k inl prev (s.mapped env)).Sim (walkLines env.unmapped c depth ls k inl prev s) (Maps env) := by
  induction ls generalizing k inl prev s with
  | nil => exact .ok ⟨rfl, hs⟩
  | cons l ls ih =>
    unfold walkLines
    split
    · exact ih k inl prev s hs
    · refine (getId_mapped env s hs c l.file).bind ?_
      rintro _ ⟨id, t⟩ ⟨rfl, ht⟩
      refine (getTrueId_mapped env t ht id).bind ?_
      rintro _ ⟨tid, u⟩ ⟨rfl, hu⟩
      refine (ih _ _ _ u hu).bind ?_
      rintro _ ⟨ops, v⟩ ⟨rfl, hv⟩
      exact .ok ⟨rfl, hv⟩

mutual
theorem collectRec_mapped (env : CEnv) (depth : Nat) (f : Func) (s : SourceFiles) (hs : s.Calm env.src) (org : InlineOrigins) :
    (collectRec env depth f (s.mapped env.src) org).Sim (collectRec env.unmapped depth f s org)
      fun a b => a = (b.1, b.2.1.mapped env.src, b.2.2) ∧ b.2.1.Calm env.src := by
  match f with
  | .mk a z n comp lines inlinees =>
    rw [collectRec, collectRec]
    refine (collectInlinees_mapped env depth inlinees s hs org).bind ?_
    rintro _ ⟨ranges, ops, t, org⟩ ⟨rfl, ht⟩
    refine (walkLines_mapped env.src comp depth lines 0 _ none t ht).bind ?_
    rintro _ ⟨ops2, u⟩ ⟨rfl, hu⟩
    exact .ok ⟨rfl, hu⟩
theorem collectInlinees_mapped (env : CEnv) (depth : Nat) (fs : List Func) (s : SourceFiles) (hs : s.Calm env.src) (org : InlineOrigins) :
    (collectInlinees env depth fs (s.mapped env.src) org).Sim (collectInlinees env.unmapped depth fs s org)
      fun a b => a = (b.1, b.2.1, b.2.2.1.mapped env.src, b.2.2.2) ∧ b.2.2.1.Calm env.src := by
  match fs with
  | [] => rw [collectInlinees, collectInlinees]; exact .ok ⟨rfl, hs⟩
  | f :: fs =>
    rw [collectInlinees, collectInlinees]
    split
    · exact collectInlinees_mapped env depth fs s hs org
    · dsimp only
      refine (collectRec_mapped env (depth + 1) f s hs _).bind ?_
      rintro _ ⟨ops, t, org'⟩ ⟨rfl, ht⟩
      refine (collectInlinees_mapped env depth fs t ht org').bind ?_
      rintro _ ⟨ranges, ops2, u, org''⟩ ⟨rfl, hu⟩
      exact .ok ⟨rfl, hu⟩
end

/-- The state of a collection with the paths mapped. -/
def State.mapped (env : SrcEnv) (st : State) : State := { st with src := st.src.mapped env }

theorem collectFunction_mapped (env : CEnv) (inlines : Bool) (f : Func) (st : State) (hs : st.src.Calm env.src) :
    (collectFunction env inlines f (st.mapped env.src)).Sim (collectFunction env.unmapped inlines f st)
      fun a b => a = b.mapped env.src ∧ b.src.Calm env.src := by
  unfold collectFunction
  split
  · exact .ok ⟨rfl, hs⟩
  · show Res.Sim (match existingFunc st.syms (u32 f.address) with | some sym => _ | none => _)
      (match existingFunc st.syms (u32 f.address) with | some sym => _ | none => _) _
    cases existingFunc st.syms (u32 f.address) with
    | some sym => exact .ok ⟨rfl, hs⟩
    | none =>
      have hops : (functionOps env inlines f (st.src.mapped env.src) st.org).Sim (functionOps env.unmapped inlines f st.src st.org)
          fun a b => a = (b.1, b.2.1.mapped env.src, b.2.2) ∧ b.2.1.Calm env.src := by
        unfold functionOps
        split
        · exact collectRec_mapped env 0 f st.src hs st.org
        · unfold collectWithoutInlines
          refine (linesNoInlines_mapped env.src f.comp f.lines none st.src hs).bind ?_
          rintro _ ⟨ops, t⟩ ⟨rfl, ht⟩
          exact .ok ⟨rfl, ht⟩
      refine hops.bind ?_
      rintro _ ⟨ops, t, org⟩ ⟨rfl, ht⟩
      refine Res.Sim.bind (R := Eq) (fun a e => ⟨a, e, rfl⟩) ?_
      rintro ls _ rfl
      exact .ok ⟨rfl, ht⟩

theorem collectFunctions_mapped (env : CEnv) (inlines : Bool) (fs : List (Option Func)) (st : State) (hs : st.src.Calm env.src) :
    (collectFunctions env inlines fs (st.mapped env.src)).Sim (collectFunctions env.unmapped inlines fs st)
      fun a b => a = b.mapped env.src ∧ b.src.Calm env.src := by
  induction fs generalizing st with
  | nil => exact .ok ⟨rfl, hs⟩
  | cons f fs ih =>
    cases f with
    | none => exact ih st hs
    | some f =>
      unfold collectFunctions
      refine (collectFunction_mapped env inlines f st hs).bind ?_
      rintro _ t ⟨rfl, ht⟩
      exact ih t ht

end Collector

namespace ObjectInfo

/-- A dump is the dump without path mapping with the paths mapped. -/
theorem fromObject_mapped (env : CEnv) (inlines : Bool) (pl : Platform) (main : ObjInput) (name : Str) (pe : Option ObjInput) (peName : Option Str) :
    (fromObject env inlines pl main name pe peName).Sim (fromObject env.unmapped inlines pl main name pe peName)
      fun o p => o = { p with files := { p.files with idToRef := p.files.idToRef.map env.src.mapped } } ∧
        ∀ q ∈ p.files.idToRef, env.src.mapPanics q = false := by
  unfold fromObject
  cases main.functions with
  | error m => exact .err
  | ok fs =>
    dsimp only
    have hc : (collect env inlines pl main name peName fs).Sim (collect env.unmapped inlines pl main name peName fs)
        fun a b => a = b.mapped env.src ∧ b.src.Calm env.src := by
      unfold collect
      refine (collectFunctions_mapped env inlines fs State.new ⟨(by intro e h; cases h), by intro e h; cases h⟩).bind ?_
      rintro _ t ⟨rfl, ht⟩
      have hpub : ∀ ps m, collectPublics env pl ps m = collectPublics env.unmapped pl ps m := by
        intro ps
        induction ps with
        | nil => intro m; rfl
        | cons p ps ih =>
          intro m
          unfold collectPublics
          have : collectPublic env pl p m = collectPublic env.unmapped pl p m := rfl
          rw [this]
          cases collectPublic env.unmapped pl p m with
          | ok m' => exact ih m'
          | err _ => rfl
          | panic => rfl
      refine Res.Sim.bind (R := Eq) (fun a e => ⟨a, (hpub _ _).symm.trans e, rfl⟩) ?_
      rintro m _ rfl
      refine Res.Sim.bind (R := Eq) ?_ ?_
      · intro a e
        refine ⟨a, ?_, rfl⟩
        rw [← e]
        unfold withMini
        cases miniPublics main with
        | ok ps =>
          cases ps with
          | none => rfl
          | some ps => exact (hpub _ _).symm
        | err _ => rfl
        | panic => rfl
      · rintro m _ rfl
        exact .ok ⟨rfl, ht⟩
    refine hc.bind ?_
    rintro _ t ⟨rfl, ht⟩
    exact .ok ⟨rfl, ht.2⟩

/-- Two dumps of one object that differ in the path mapping. -/
theorem same_paths {e1 e2 : CEnv} (h : e1.unmapped = e2.unmapped) {inlines : Bool} {pl : Platform} {main : ObjInput}
    {name : Str} {pe : Option ObjInput} {peName : Option Str} {o p : ObjectInfo} (h1 : fromObject e1 inlines pl main name pe peName = .ok o)
    (h2 : fromObject e2 inlines pl main name pe peName = .ok p) :
    o.SameButPaths (fun a b => e1.src.mapPanics a = false ∧ b = e1.src.mapped a) (fun a b => e2.src.mapPanics a = false ∧ b = e2.src.mapped a) p := by
  obtain ⟨a, k1, rfl, ha⟩ := fromObject_mapped _ _ _ _ _ _ _ _ h1
  obtain ⟨b, k2, rfl, hb⟩ := fromObject_mapped _ _ _ _ _ _ _ _ h2
  rw [h, k2] at k1
  cases k1
  refine ⟨⟨rfl, rfl, rfl, rfl, rfl, rfl, rfl, rfl, rfl⟩, rfl, rfl, a.files.idToRef.map (fun q => (q, e1.src.mapped q, e2.src.mapped q)), ?_, ?_, ?_⟩
  · intro e he
    obtain ⟨q, hq, rfl⟩ := List.mem_map.mp he
    exact ⟨⟨ha q hq, rfl⟩, hb q hq, rfl⟩
  · simp [SourceMap.getMapping]
  · simp [SourceMap.getMapping]

end ObjectInfo
end DumpSyms
