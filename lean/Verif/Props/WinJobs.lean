import Verif.Props.WinSeveralSamples
import Verif.Props.OneByOne
/-!
# C123: the number of jobs, the order of the files, and one file after the other, on Windows

As C94 and C99, with the paths of Windows.
-/
namespace DumpSyms
namespace WinHost
open WinPath
open Dumper (Env Config prepare)
open Run (Orders Options Action actionOf exitStatus Infos Input Possible Sound Works dump_sound Distinct possible_alone)
open Output (FileOutput Out IoEnv)
open ObjectInfo Collector Reader

/-- The symbol file of an input: where it is in the store, and what it holds. -/
def Stored (env : Env) (mapping : Option (List Mapping.Generator)) (inlines : Bool) (infos : List Str) (dir : Str) (x : Input) (p : Str) (b : Bytes) : Prop :=
  ∃ m t, x.Dumps env mapping inlines m ∧ InStore dir m.fileName m.debugId p ∧ m.display (some infos) = .ok t ∧ b = Utf8.encode t

/-- An input has one place, with one symbol file. -/
theorem stored_unique {env : Env} {mapping : Option (List Mapping.Generator)} {arch : Str} {w : Cache.World} {inlines : Bool} {infos : List Str} {dir : Str} {x : Input}
    {p q : Str} {b c : Bytes} (hx : InputOk x env mapping arch w infos) (hd : PlainDir dir) (h : Stored env mapping inlines infos dir x p b)
    (h' : Stored env mapping inlines infos dir x q c) : p = q ∧ b = c := by
  obtain ⟨m, t, d, i, e, rfl⟩ := h
  obtain ⟨m', t', d', i', e', rfl⟩ := h'
  have hn := hx.name d
  unfold Input.Dumps at d d'
  rw [d] at d'; cases d'
  rw [inStore_iff hd hn.1 hn.2] at i i'
  rw [e] at e'; cases e'
  exact ⟨by rw [i, i'], rfl⟩

/-- Inputs with different debug ids have different places. -/
theorem stored_apart {env : Env} {mapping : Option (List Mapping.Generator)} {arch : Str} {w : Cache.World} {inlines : Bool} {infos : List Str} {dir : Str}
    {inputs : List Input} (hx : ∀ x ∈ inputs, InputOk x env mapping arch w infos) (hd : PlainDir dir) (hlines : ∀ l ∈ infos, OneLine l)
    (hdist : Distinct inputs) {x y : Input}
    (hxm : x ∈ inputs) (hym : y ∈ inputs) {p : Str} {b c : Bytes} (h : Stored env mapping inlines infos dir x p b)
    (h' : Stored env mapping inlines infos dir y p c) : x = y := by
  obtain ⟨m, t, d, i, e, rfl⟩ := h
  obtain ⟨m', t', d', i', e', rfl⟩ := h'
  have e1 := (dump_sound (hx x hxm).clear hlines d).2.2.1
  have e2 := (dump_sound (hx y hym).clear hlines d').2.2.1
  have n1 := (hx x hxm).name d
  have n2 := (hx y hym).name d'
  rw [inStore_iff hd n1.1 n1.2] at i
  rw [inStore_iff hd n2.1 n2.2] at i'
  have := (C104_distinct n1.1 n2.1 n1.2 n2.2 (i.symm.trans i')).1
  exact hdist.mem hxm hym (by rw [← e1, ← e2, this])

/-- What a run over several files into a store leaves, when no two inputs have the same debug id: the symbol file of each input, and every other file
as it was. -/
theorem stored_exactly {env : Env} {version : Str} {cpus : Nat} {o : Options} {inputs : List Input} {w : Cache.World} {orders : Orders}
    {mapping : Option (List Mapping.Generator)} {arch : Str} {k : Nat} {dir : Str}
    (hrun : Several env version o inputs w orders mapping arch k dir) (hout : o.output = none) (hdist : Distinct inputs) (out : Output.World)
    {code : Nat} {out' : Output.World} (hex : Exits env version cpus o w orders out code out') :
    code = 0 ∧ out'.stdout = out.stdout ∧ out'.stderr = out.stderr ∧
    (∀ x ∈ inputs, ∃ p b, Stored env mapping o.inlines (Infos version o) dir x p b ∧ out'.files p = some b) ∧
    ∀ p, (∀ x ∈ inputs, ∀ b, ¬ Stored env mapping o.inlines (Infos version o) dir x p b) → out'.files p = out.files p := by
  obtain ⟨c, rules, g⟩ := hrun.goes cpus out
  have hx := hrun.each w .start
  have hlines := hrun.lines
  have hceq : c.output = .store dir := by
    have hact := g.action
    simp only [actionOf, hrun.noList, Bool.false_eq_true, if_false] at hact
    cases hact
    simp [Output.Out.ofOptions, hout, hrun.store]
  obtain ⟨hcode, ws, hws, hs⟩ := g.ends code out' hex
  have hreq : ∀ m fo, Requested c.output m fo → ∃ p, fo = .path p ∧ InStore dir m.fileName m.debugId p := by
    intro m fo hr
    rw [hceq] at hr
    cases hr with
    | file h => rcases h with h | ⟨d, h⟩ <;> cases h
    | store h hd hp =>
      rcases h with h | ⟨fo, h⟩
      · cases h; exact ⟨_, rfl, hp⟩
      · cases h
  have hnames : ∀ (i : Nat) f m, (inputs.map fun x => x.pre ++ x.filename)[i]? = some f → (parseInput env c mapping arch f (ws i)).1 = .ok m →
      WinProper m.fileName ∧ WinProper m.debugId := by
    intro i f m hf hm
    obtain ⟨m', h1, h2⟩ := g.parse _ (hws i) f (List.mem_of_getElem? hf)
    rw [hm] at h1; cases h1
    exact h2
  have hun : ∀ fo, (∀ x ∈ inputs, ∀ m, x.Dumps env mapping o.inlines m → ¬ Requested c.output m fo) → Output.Untouched out out' fo := by
    intro fo hnone
    have hno : ∀ l m, Threads.MadeOnce (threads env (some (Infos version o)) c (inputs.map fun x => x.pre ++ x.filename) ws orders mapping arch out) l m →
        ¬ Requested c.output m fo := by
      intro l m hm
      obtain ⟨i, x, _, hi, hd⟩ := possible_alone (fun x h => (hx x h).clear) hlines hdist (g.made ws hws l m hm)
      exact hnone x (List.mem_of_getElem? hi) m hd
    cases hs with
    | returned mapping' arch' m h hr _ =>
      rw [g.prep] at h; cases h
      exact (C114_moments env _ c _ ws orders out mapping arch hrun.results g.plain hnames hrun.parts hr).1 fo hno
  refine ⟨hcode, ?_, ?_, ?_, ?_⟩
  · exact hun .stdout (fun x _ m _ hr => by obtain ⟨p, h, _⟩ := hreq m _ hr; cases h)
  · exact hun .stderr (fun x _ m _ hr => by obtain ⟨p, h, _⟩ := hreq m _ hr; cases h)
  · intro x hmem
    obtain ⟨i, hi⟩ := List.getElem?_of_mem hmem
    obtain ⟨mi, ti, fi, d1, d2, d3, d4⟩ := g.dump x hmem
    obtain ⟨l, m, t, p, m1, m2, m3, m4, m5, m6⟩ := C114_stored env (some (Infos version o)) c _ ws orders out out' mapping arch
      (by simpa using hrun.notOne) g.prep hrun.results g.plain (fun i f hf => g.parse _ (hws i) f (List.mem_of_getElem? hf)) (g.works ws hws) dir hrun.named
      (.inl hceq) hs i (x.pre ++ x.filename) (by simp [hi]) mi ((g.reads _ (hws i) x hmem mi).mpr d1)
    obtain ⟨j, y, _, hj, hd⟩ := possible_alone (fun x h => (hx x h).clear) hlines hdist (g.made ws hws l m m1)
    have hy := List.mem_of_getElem? hj
    have : y = x := hdist.mem hy hmem (by
      rw [← (dump_sound (hx y hy).clear hlines hd).2.2.1, m3, (dump_sound (hx x hmem).clear hlines d1).2.2.1])
    subst this
    exact ⟨p, _, ⟨m, t, hd, m5, m4, rfl⟩, m6⟩
  · intro p hp
    refine hun (.path p) (fun x hmem m hd hr => ?_)
    obtain ⟨q, e, hq⟩ := hreq m _ hr
    cases e
    obtain ⟨mi, ti, fi, d1, d2, d3, d4⟩ := g.dump x hmem
    have : mi = m := by unfold Input.Dumps at d1 hd; rw [d1] at hd; cases hd; rfl
    subst this
    exact hp x hmem _ ⟨_, ti, hd, hq, d2, rfl⟩

/-- Nothing that goes to a store goes to the standard streams. -/
theorem store_streams (io : IoEnv) (extra : Option (List Str)) (dir : Str) (checkCfi : Bool) (m : ObjectInfo) (w : Output.World) :
    (store io extra (.store dir) checkCfi m w).2.stdout = w.stdout ∧ (store io extra (.store dir) checkCfi m w).2.stderr = w.stderr := by
  have hto : ∀ (text : Res Str) (p : Str) (w' : Output.World), (Output.writeTo io text (.path p) w').2.stdout = w'.stdout ∧
      (Output.writeTo io text (.path p) w').2.stderr = w'.stderr := by
    intro text p w'
    unfold Output.writeTo
    split
    · cases text <;> exact ⟨rfl, rfl⟩
    · exact ⟨rfl, rfl⟩
  have hst : ∀ (text : Res Str) (p : Str), (writeStore io text p w).2.stdout = w.stdout ∧ (writeStore io text p w).2.stderr = w.stderr := by
    intro text p
    unfold writeStore
    split
    · exact ⟨rfl, rfl⟩
    · split
      · exact hto text p _
      · exact ⟨rfl, rfl⟩
  have h1 : (destinations (.store dir) m).1 = none := rfl
  unfold store
  split
  · exact ⟨rfl, rfl⟩
  · simp only [h1]
    cases (destinations (.store dir) m).2 with
    | none => exact ⟨rfl, rfl⟩
    | some p =>
      simp only
      split
      · exact hst _ p
      · exact hst _ p

/-- A run on one of the files that a run over several files with a store can be given: it ends with status 0, the symbol file of the input is in its
place, and nothing else is changed. -/
theorem single_exactly {env : Env} {version : Str} {cpus : Nat} {o : Options} {inputs : List Input} {w w' : Cache.World} {orders : Orders}
    {mapping : Option (List Mapping.Generator)} {arch : Str} {k : Nat} {dir : Str}
    (hrun : Several env version o inputs w orders mapping arch k dir) (hout : o.output = none) (hserver : o.symbolServer = none)
    (hdebug : o.debugId = none) (hcode : o.codeId = none) (hw : Meanwhile env w w') {x : Input} (hx : x ∈ inputs) (out : Output.World)
    {code : Nat} {out' : Output.World} (hex : Exits env version cpus { o with filenames := [x.pre ++ x.filename] } w' orders out code out') :
    code = 0 ∧ out'.stdout = out.stdout ∧ out'.stderr = out.stderr ∧
    (∃ p b, Stored env mapping o.inlines (Infos version o) dir x p b ∧ out'.files p = some b) ∧
    ∀ p, (∀ b, ¬ Stored env mapping o.inlines (Infos version o) dir x p b) → out'.files p = out.files p := by
  obtain ⟨c, rules, g⟩ := hrun.goes cpus out
  have hact : actionOf cpus { o with filenames := [x.pre ++ x.filename] } = .dump c := g.action
  have hceq : c.output = .store dir := by
    have hact := g.action
    simp only [actionOf, hrun.noList, Bool.false_eq_true, if_false] at hact
    cases hact
    simp [Output.Out.ofOptions, hout, hrun.store]
  obtain ⟨m, t, file, d1, d2, d3, d4⟩ := g.dump x hx
  have hnm := (hrun.each w .start x hx).name d1
  have hread : (readSingle env c (x.pre ++ x.filename) w').1 = .ok m := by
    rw [readSingle_parse env c _ w' (g.config.search.1.trans hserver) (g.config.search.2.1.trans hdebug) (g.config.search.2.2.trans hcode) g.prep]
    exact (g.reads w' hw x hx m).mpr d1
  obtain ⟨i, hi⟩ := List.getElem?_of_mem hx
  have hposs : Possible env mapping o.inlines orders.tables inputs [i] m := .one i x m hi d1
  have hcfi : c.checkCfi = true → m.stack ≠ [] := by
    intro h
    rw [g.config.checkCfi] at h
    exact (g.sound hposs).stack (hrun.cfi h)
  have hdone := C113_complete_partial env (some (Infos version o)) c (x.pre ++ x.filename) w' out hread hcfi g.plain hnm.1 hnm.2 d2 (hrun.parts t)
    hrun.mkdirs hrun.create (fun fo => hrun.room _ _ _ hposs d2 fo)
  have hend : code = 0 ∧ out' = (singleFile env (some (Infos version o)) c (x.pre ++ x.filename) w' out).2.2 := by
    have hex' := hex
    cases hex' with
    | badInfo h => exact absurd g.infos (h _)
    | acts extra r out' h ha =>
      have h : Main.getExtraInfo version o.extraInfo o.noGenerator = .ok extra := h
      rw [g.infos] at h; cases h
      rw [hact] at ha
      cases ha with
      | single config f hf =>
        cases hf
        rw [hdone.1]
        exact ⟨rfl, rfl⟩
      | several config ws r out' hlen => exact absurd rfl hlen
  obtain ⟨rfl, rfl⟩ := hend
  have hstored : (singleFile env (some (Infos version o)) c (x.pre ++ x.filename) w' out).2.2 =
      (store env.io (some (Infos version o)) (.store dir) c.checkCfi m out).2 := by
    unfold singleFile
    simp only [hread, hceq]
  rw [hstored]
  have hs := store_streams env.io (some (Infos version o)) dir c.checkCfi m out
  refine ⟨rfl, hs.1, hs.2, ?_, ?_⟩
  · have hin : InStore dir m.fileName m.debugId (placeOf dir m) := (inStore_iff (hrun.plain dir hrun.store hrun.named) hnm.1 hnm.2).mpr rfl
    refine ⟨placeOf dir m, Utf8.encode t, ⟨m, t, d1, hin, d2, rfl⟩, ?_⟩
    rw [← hstored]
    exact hdone.2 (.path (placeOf dir m)) (by rw [hceq]; exact .store (.inl rfl) hrun.named hin)
  · intro p hp
    have hplain := g.plain
    rw [hceq] at hplain
    refine store_others env.io (some (Infos version o)) (.store dir) c.checkCfi m out hplain hnm.1 hnm.2 p fun hr => ?_
    cases hr with
    | file h => rcases h with h | ⟨d, h⟩ <;> cases h
    | store h hd hin =>
      rcases h with h | ⟨fo, h⟩
      · cases h
        exact hp _ ⟨m, t, d1, hin, d2, rfl⟩
      · cases h

/-- Running the program on one file after the other.  Each run may find in the caches what others have put there. -/
inductive OneByOne (env : Env) (version : Str) (cpus : Nat) (o : Options) (w : Cache.World) (orders : Orders) :
    List Str → Output.World → Output.World → Prop where
  | done (out : Output.World) : OneByOne env version cpus o w orders [] out out
  | next (f : Str) (fs : List Str) (w' : Cache.World) (code : Nat) (out out1 out2 : Output.World) (hw : Meanwhile env w w')
      (h : Exits env version cpus { o with filenames := [f] } w' orders out code out1) (hs : OneByOne env version cpus o w orders fs out1 out2) :
      OneByOne env version cpus o w orders (f :: fs) out out2

/-- Every place of the store that belongs to one of the inputs holds its symbol file, and the rest is as it was. -/
structure Filled (env : Env) (mapping : Option (List Mapping.Generator)) (inlines : Bool) (infos : List Str) (dir : Str) (inputs : List Input)
    (out out' : Output.World) : Prop where
  stdout : out'.stdout = out.stdout
  stderr : out'.stderr = out.stderr
  stored : ∀ x ∈ inputs, ∀ p b, Stored env mapping inlines infos dir x p b → out'.files p = some b
  rest : ∀ p, (∀ x ∈ inputs, ∀ b, ¬ Stored env mapping inlines infos dir x p b) → out'.files p = out.files p

theorem Filled.same {env : Env} {mapping : Option (List Mapping.Generator)} {inlines : Bool} {infos : List Str} {dir : Str} {inputs : List Input}
    {out out1 out2 : Output.World} (h : Filled env mapping inlines infos dir inputs out out1) (h' : Filled env mapping inlines infos dir inputs out out2) :
    out1.files = out2.files ∧ out1.stdout = out2.stdout ∧ out1.stderr = out2.stderr := by
  refine ⟨funext fun p => ?_, h.stdout.trans h'.stdout.symm, h.stderr.trans h'.stderr.symm⟩
  by_cases hp : ∃ x ∈ inputs, ∃ b, Stored env mapping inlines infos dir x p b
  · obtain ⟨x, hxm, b, hb⟩ := hp
    rw [h.stored x hxm p b hb, h'.stored x hxm p b hb]
  · have hn : ∀ x ∈ inputs, ∀ b, ¬ Stored env mapping inlines infos dir x p b := fun x hxm b hb => hp ⟨x, hxm, b, hb⟩
    rw [h.rest p hn, h'.rest p hn]

theorem filled_several {env : Env} {version : Str} {cpus : Nat} {o : Options} {inputs : List Input} {w : Cache.World} {orders : Orders}
    {mapping : Option (List Mapping.Generator)} {arch : Str} {k : Nat} {dir : Str}
    (hrun : Several env version o inputs w orders mapping arch k dir) (hout : o.output = none) (hdist : Distinct inputs) {out : Output.World}
    {code : Nat} {out' : Output.World} (hex : Exits env version cpus o w orders out code out') :
    code = 0 ∧ Filled env mapping o.inlines (Infos version o) dir inputs out out' := by
  obtain ⟨a1, a2, a3, a4, a5⟩ := stored_exactly hrun hout hdist out hex
  refine ⟨a1, a2, a3, fun x hx p b hb => ?_, a5⟩
  obtain ⟨q, c, hc, e⟩ := a4 x hx
  obtain ⟨rfl, rfl⟩ := stored_unique (hrun.each w .start x hx) (hrun.plain dir hrun.store hrun.named) hb hc
  exact e

theorem filled_single {env : Env} {version : Str} {cpus : Nat} {o : Options} {inputs : List Input} {w : Cache.World} {orders : Orders}
    {mapping : Option (List Mapping.Generator)} {arch : Str} {k : Nat} {dir : Str}
    (hrun : Several env version o inputs w orders mapping arch k dir) (hout : o.output = none) (hdist : Distinct inputs) (hserver : o.symbolServer = none)
    (hdebug : o.debugId = none) (hcode : o.codeId = none) (xs : List Input) (hxs : ∀ x ∈ xs, x ∈ inputs) {out out' : Output.World}
    (h : OneByOne env version cpus o w orders (xs.map fun x => x.pre ++ x.filename) out out') :
    Filled env mapping o.inlines (Infos version o) dir xs out out' := by
  induction xs generalizing out with
  | nil =>
    cases h with
    | done => exact ⟨rfl, rfl, fun x hx => (by cases hx), fun p _ => rfl⟩
  | cons x xs ih =>
    cases h with
    | next _ _ w' code _ out1 _ hw h1 hs =>
      obtain ⟨_, b2, b3, ⟨p0, b0, b4, b5⟩, b6⟩ := single_exactly hrun hout hserver hdebug hcode hw (hxs x (by simp)) out h1
      have hf := ih (fun y hy => hxs y (by simp [hy])) hs
      refine ⟨hf.stdout.trans b2, hf.stderr.trans b3, fun y hy p b hb => ?_, fun p hp => ?_⟩
      · by_cases hlater : ∃ z ∈ xs, ∃ c, Stored env mapping o.inlines (Infos version o) dir z p c
        · obtain ⟨z, hz, c, hc⟩ := hlater
          have := stored_apart (hrun.each w .start) (hrun.plain dir hrun.store hrun.named) hrun.lines hdist (hxs y hy) (hxs z (by simp [hz])) hb hc
          subst this
          exact hf.stored y hz p b hb
        · have hyx : y = x := by
            rcases List.mem_cons.mp hy with h | h
            · exact h
            · exact absurd ⟨y, h, b, hb⟩ hlater
          subst hyx
          rw [hf.rest p fun z hz c hc => hlater ⟨z, hz, c, hc⟩]
          obtain ⟨rfl, rfl⟩ := stored_unique (hrun.each w .start _ (hxs _ hy)) (hrun.plain dir hrun.store hrun.named) hb b4
          exact b5
      · rw [hf.rest p fun z hz c hc => hp z (by simp [hz]) c hc]
        exact b6 p fun b hb => hp x (by simp) b hb

/-- **C123, order and jobs.** Two runs over the same files, given in any order and with any number of jobs, CPUs, schedules and hash orders, and from any states
of the disk in which the inputs can be read: if they store into the same directory and no two inputs have the same debug id, they end with status 0 if they
end, and leave the same files. -/
theorem C123_same (env : Env) (version : Str) (cpus cpus' : Nat) (o o' : Options) (inputs inputs' : List Input) (w w' : Cache.World) (orders orders' : Orders)
    (mapping : Option (List Mapping.Generator)) (arch arch' : Str) (k k' : Nat) (dir : Str)
    (hrun : Several env version o inputs w orders mapping arch k dir) (hrun' : Several env version o' inputs' w' orders' mapping arch' k' dir)
    (hperm : inputs'.Perm inputs) (hdist : Distinct inputs) (hout : o.output = none) (hout' : o'.output = none)
    (hinl : o'.inlines = o.inlines) (hinfo : Infos version o' = Infos version o) (out : Output.World) {code code' : Nat} {out1 out2 : Output.World}
    (h : Exits env version cpus o w orders out code out1) (h' : Exits env version cpus' o' w' orders' out code' out2) :
    code = 0 ∧ code' = 0 ∧ out1.files = out2.files ∧ out1.stdout = out2.stdout ∧ out1.stderr = out2.stderr := by
  obtain ⟨a1, a2⟩ := filled_several hrun hout hdist h
  obtain ⟨b1, b2⟩ := filled_several hrun' hout' ((hperm.map _).nodup_iff.mpr hdist) h'
  rw [hinl, hinfo] at b2
  exact ⟨a1, b1, a2.same ⟨b2.stdout, b2.stderr, fun x hx => b2.stored x (hperm.mem_iff.mpr hx),
    fun p hp => b2.rest p fun x hx => hp x (hperm.mem_iff.mp hx)⟩⟩

/-- **C123, one after the other.** When no two inputs have the same debug id, running the program on one file after the other leaves the same files as
running it on all of them at once. -/
theorem C123_one_by_one (env : Env) (version : Str) (cpus cpus' : Nat) (o : Options) (inputs : List Input) (w : Cache.World) (orders : Orders)
    (mapping : Option (List Mapping.Generator)) (arch : Str) (k : Nat) (dir : Str) (hrun : Several env version o inputs w orders mapping arch k dir)
    (hdist : Distinct inputs) (hout : o.output = none) (hserver : o.symbolServer = none) (hdebug : o.debugId = none) (hcode : o.codeId = none)
    (out : Output.World) {code : Nat} {out1 out2 : Output.World} (h : OneByOne env version cpus o w orders o.filenames out out1)
    (h' : Exits env version cpus' o w orders out code out2) :
    code = 0 ∧ out1.files = out2.files ∧ out1.stdout = out2.stdout ∧ out1.stderr = out2.stderr := by
  obtain ⟨h1, h2⟩ := filled_several hrun hout hdist h'
  rw [hrun.files] at h
  exact ⟨h1, (filled_single hrun hout hdist hserver hdebug hcode inputs (fun _ h => h) h).same h2⟩

/-- **C123, again.** A second run over the files, with other numbers of jobs and CPUs and another schedule, leaves the files as the first one left them,
whatever the first one put in the caches. -/
theorem C123_again (env : Env) (version : Str) (cpus cpus' : Nat) (o : Options) (inputs : List Input) (w w' : Cache.World) (orders orders' : Orders)
    (mapping : Option (List Mapping.Generator)) (arch : Str) (k : Nat) (dir : Str) (hrun : Several env version o inputs w orders mapping arch k dir)
    (hrun' : Several env version o inputs w' orders' mapping arch k dir) (hdist : Distinct inputs) (hout : o.output = none)
    (out : Output.World) {code code' : Nat} {out1 out2 : Output.World} (h : Exits env version cpus o w orders out code out1)
    (h' : Exits env version cpus' o w' orders' out1 code' out2) :
    code' = 0 ∧ out2.files = out1.files ∧ out2.stdout = out1.stdout ∧ out2.stderr = out1.stderr := by
  obtain ⟨_, h2⟩ := filled_several hrun hout hdist h
  obtain ⟨h3, h4⟩ := filled_several hrun' hout hdist h'
  refine ⟨h3, funext fun p => ?_, h4.stdout, h4.stderr⟩
  by_cases hp : ∃ x ∈ inputs, ∃ b, Stored env mapping o.inlines (Infos version o) dir x p b
  · obtain ⟨x, hxm, b, hb⟩ := hp
    rw [h2.stored x hxm p b hb, h4.stored x hxm p b hb]
  · exact h4.rest p fun x hxm b hb => hp ⟨x, hxm, b, hb⟩


/-! ### Two runs, and one after the other, as in `Props/Jobs.lean` and `Props/OneByOne.lean` -/

/-- A run with the ELF file and the Mach-O file, in either order. -/
def jobInputs (swap : Bool) : List Input := if swap then [win2, win0] else [win0, win2]
def jobOptions (swap : Bool) : Options :=
  { winOptions3 with filenames := if swap then [str% "C:\\d\\c", str% "C:\\d\\a"] else [str% "C:\\d\\a", str% "C:\\d\\c"], numJobs := if swap then str% "3" else str% "2" }

theorem jobInputs_mem {swap : Bool} {x : Input} (h : x ∈ jobInputs swap) : x ∈ winInputs := by
  cases swap <;> simp [jobInputs] at h <;> rcases h with rfl | rfl <;> simp [winInputs]

theorem jobDistinct (swap : Bool) : Distinct (jobInputs swap) := by cases swap <;> unfold Distinct <;> decide

theorem jobDumps {swap : Bool} {x : Input} {m : ObjectInfo} (hx : x ∈ jobInputs swap) (h : x.Dumps winEnv2 none true m) : m = wd0 ∨ m = wd2 := by
  cases swap <;> simp only [jobInputs, Bool.false_eq_true, if_false, if_true, List.mem_cons, List.not_mem_nil, or_false] at hx <;>
    rcases hx with rfl | rfl <;> cases h
  · exact .inl rfl
  · exact .inr rfl
  · exact .inr rfl
  · exact .inl rfl

theorem jobSeveral (swap : Bool) :
    Several winEnv2 (str% "1.0") (jobOptions swap) (jobInputs swap) winDisk3 Run.exOrders none (str% "x86_64") 2 (str% "D:\\") where
  sha := winSeveral.sha
  order := winSeveral.order
  noList := rfl
  files := by cases swap <;> rfl
  notOne := by cases swap <;> decide
  info := by intro v hv; cases hv
  lines := by intro l hl; cases hl
  sane := winSeveral.sane
  plain := winSeveral.plain
  results := winSeveral.results
  hashes := winSeveral.hashes
  rules := rfl
  knownArch := rfl
  each := fun w hw x hx => winInputs_each hw (jobInputs_mem hx)
  size := by
    intro x hx m hm
    rcases jobDumps hx hm with rfl | rfl <;> decide +kernel
  below := by cases swap <;> decide
  cfi := fun h x hx => winSeveral.cfi h x (jobInputs_mem hx)
  store := rfl
  named := by decide
  output := by intro f h; cases h
  parts := winSeveral.parts
  mkdirs := fun _ => rfl
  create := fun _ => rfl
  room := by
    intro l m t hm ht fo
    obtain ⟨i, x, _, hi, hd⟩ := possible_alone (fun x hx => (winInputs_each .start (jobInputs_mem hx)).clear) (by intro l hl; cases hl) (jobDistinct swap) hm
    have hb : Run.lengthOf wd0 ≤ 1000000 ∧ Run.lengthOf wd2 ≤ 1000000 := by decide +kernel
    have hl : Run.lengthOf m ≤ 1000000 := by
      rcases jobDumps (List.mem_of_getElem? hi) hd with rfl | rfl <;> simp [hb]
    have ht' : m.display (some []) = .ok t := ht
    unfold Run.lengthOf at hl
    rw [ht'] at hl
    exact hl

def jobConfig (swap : Bool) : Config := match actionOf 4 (jobOptions swap) with | .dump c => c | _ => Dumper.exConfig
def jobThreads (swap : Bool) : Threads.Env :=
  threads winEnv2 (some []) (jobConfig swap) (jobOptions swap).filenames (fun _ => winDisk3) Run.exOrders none (str% "x86_64") Output.emptyWorld

/-- The one worker reads both files and the other one stores a module; which is which depends on the run. -/
def jobRun (i j : Nat) : List Threads.Action :=
  List.replicate 2 .send ++ Threads.steps i 13 ++ Threads.steps j 1 ++ Threads.steps i 5 ++ Threads.steps j 2 ++ [.join, .join]

def jobLast (swap : Bool) : Threads.Moment :=
  Run.played (jobThreads swap) (callsOf winEnv2.io (some []) (jobConfig swap).output (jobConfig swap).checkCfi) Output.emptyWorld
    (Run.whole (if swap then jobRun 1 0 else jobRun 0 1))

theorem jobRun_exits : Exits winEnv2 (str% "1.0") 4 (jobOptions false) winDisk3 Run.exOrders Output.emptyWorld 0 (jobLast false).out :=
  .acts [] (.ok ()) _ rfl (.several (jobConfig false) (fun _ => winDisk3) (.ok ()) _ (by decide) (fun _ => .start)
    (.returned none (str% "x86_64") (jobLast false) rfl (Run.played_moments (by decide +kernel)) (by decide +kernel)))

theorem jobSwapped_exits : Exits winEnv2 (str% "1.0") 4 (jobOptions true) winDisk3 Run.exOrders Output.emptyWorld 0 (jobLast true).out :=
  .acts [] (.ok ()) _ rfl (.several (jobConfig true) (fun _ => winDisk3) (.ok ()) _ (by decide) (fun _ => .start)
    (.returned none (str% "x86_64") (jobLast true) rfl (Run.played_moments (by decide +kernel)) (by decide +kernel)))

/-- Two runs that end, with the files in another order and another number of jobs, leave the same, which is something. -/
example : (jobLast false).out.files = (jobLast true).out.files ∧
    ((jobLast false).out.files (str% "D:\\lib.so\\E1\\lib.so.sym")).isSome ∧ ((jobLast false).out.files (str% "D:\\c\\D1\\c.sym")).isSome ∧
    Output.emptyWorld.files (str% "D:\\c\\D1\\c.sym") = none := by
  obtain ⟨_, _, h, _⟩ := C123_same _ _ _ _ _ _ _ _ _ _ _ _ _ _ _ _ _ _ (jobSeveral false) (jobSeveral true) (.swap _ _ _) (jobDistinct false) rfl rfl rfl
    rfl _ jobRun_exits jobSwapped_exits
  exact ⟨h, by decide +kernel, by decide +kernel, rfl⟩

def aloneConfig (f : Str) : Config := match actionOf 1 { jobOptions false with filenames := [f] } with | .dump c => c | _ => Dumper.exConfig

/-- What a run on one file leaves. -/
def aloneOut (f : Str) (out : Output.World) : Output.World := (singleFile winEnv2 (some []) (aloneConfig f) f winDisk3 out).2.2

theorem jobsOneByOne : OneByOne winEnv2 (str% "1.0") 1 (jobOptions false) winDisk3 Run.exOrders (jobOptions false).filenames Output.emptyWorld
    (aloneOut (str% "C:\\d\\c") (aloneOut (str% "C:\\d\\a") Output.emptyWorld)) :=
  .next _ _ winDisk3 _ _ _ _ .start (.acts [] _ _ rfl (.single (aloneConfig (str% "C:\\d\\a")) _ rfl))
    (.next _ _ winDisk3 _ _ _ _ .start (.acts [] _ _ rfl (.single (aloneConfig (str% "C:\\d\\c")) _ rfl)) (.done _))

/-- They leave what the run over both leaves, and a file in the store after the first of them is not yet the other one. -/
example : (aloneOut (str% "C:\\d\\c") (aloneOut (str% "C:\\d\\a") Output.emptyWorld)).files = (jobLast false).out.files ∧
    ((jobLast false).out.files (str% "D:\\c\\D1\\c.sym")).isSome ∧ ((aloneOut (str% "C:\\d\\a") Output.emptyWorld).files (str% "D:\\c\\D1\\c.sym")) = none := by
  obtain ⟨_, h, _⟩ := C123_one_by_one _ _ _ _ _ _ _ _ _ _ _ _ (jobSeveral false) (jobDistinct false) rfl rfl rfl rfl _ jobsOneByOne jobRun_exits
  exact ⟨h, by decide +kernel, by decide +kernel⟩

def againThreads : Threads.Env :=
  threads winEnv2 (some []) (jobConfig false) (jobOptions false).filenames (fun _ => winDisk3) Run.exOrders none (str% "x86_64") (jobLast false).out

/-- The same run again, where the first one has left its files. -/
def againLast : Threads.Moment :=
  Run.played againThreads (callsOf winEnv2.io (some []) (jobConfig false).output (jobConfig false).checkCfi) (jobLast false).out (Run.whole (jobRun 0 1))

theorem again_exits : Exits winEnv2 (str% "1.0") 4 (jobOptions false) winDisk3 Run.exOrders (jobLast false).out 0 againLast.out :=
  .acts [] (.ok ()) _ rfl (.several (jobConfig false) (fun _ => winDisk3) (.ok ()) _ (by decide) (fun _ => .start)
    (.returned none (str% "x86_64") againLast rfl (Run.played_moments (by decide +kernel)) (by decide +kernel)))

example : againLast.out.files = (jobLast false).out.files ∧ (againLast.out.files (str% "D:\\c\\D1\\c.sym")).isSome := by
  obtain ⟨_, h, _⟩ := C123_again _ _ _ _ _ _ _ _ _ _ _ _ _ _ (jobSeveral false) (jobSeveral false) (jobDistinct false) rfl _ jobRun_exits again_exits
  exact ⟨h, by rw [h]; decide +kernel⟩

end WinHost
end DumpSyms
