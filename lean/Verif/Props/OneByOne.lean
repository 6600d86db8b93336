import Verif.Props.Jobs
/-!
# C99: several files at once, one after the other, and again
-/
namespace DumpSyms
open ObjectInfo Collector Reader

namespace Run
open Dumper

/-- A run on one of the files that a run over several files with a store can be given: it ends with status 0, the symbol file of the input is in its
place, and nothing else is changed. -/
theorem single_exactly {env : Env} {version : Str} {cpus : Nat} {o : Options} {inputs : List Input} {w w' : Cache.World} {orders : Orders}
    {mapping : Option (List Mapping.Generator)} {arch : Str} {k : Nat} {dir : Str}
    (hrun : Several env version o inputs w orders mapping arch k dir) (hout : o.output = none) (hserver : o.symbolServer = none)
    (hdebug : o.debugId = none) (hcode : o.codeId = none) (hw : Meanwhile env w w') {x : Input} (hx : x ∈ inputs) (out : Output.World)
    {code : Nat} {out' : Output.World} (hex : Exits env version cpus { o with filenames := [x.pre ++ x.filename] } w' orders out code out') :
    code = 0 ∧ out'.stdout = out.stdout ∧ out'.stderr = out.stderr ∧
    (∃ p b, Stored env mapping o.inlines (Infos version o) dir x p b ∧ out'.files p = some b) ∧
    ∀ p, (∀ b, ¬ Stored env mapping o.inlines (Infos version o) dir x p b) → out'.files p = out.files p := by
  obtain ⟨c, rules, g⟩ := hrun.goes cpus out
  have hact : actionOf cpus { o with filenames := [x.pre ++ x.filename] } = .dump c := g.action
  have hceq : c.output = .store dir := by
    have hact := g.action
    simp only [actionOf, hrun.noList, Bool.false_eq_true, if_false] at hact
    cases hact
    simp [Output.Out.ofOptions, hout, hrun.store]
  obtain ⟨m, t, file, d1, d2, d3, d4⟩ := g.dump x hx
  have hread : (readSingle env c (x.pre ++ x.filename) w').1 = .ok m := by
    rw [C65_same_module_partial env c _ w' (g.config.search.1.trans hserver) (g.config.search.2.1.trans hdebug) (g.config.search.2.2.trans hcode) g.prep]
    exact (g.reads w' hw x hx m).mpr d1
  obtain ⟨i, hi⟩ := List.getElem?_of_mem hx
  have hposs : Possible env mapping o.inlines orders.tables inputs [i] m := .one i x m hi d1
  have hcfi : c.checkCfi = true → m.stack ≠ [] := by
    intro h
    rw [g.config.checkCfi] at h
    exact (g.sound hposs).stack (hrun.cfi h)
  have hdone := C62_complete env (some (Infos version o)) c (x.pre ++ x.filename) w' out hread hcfi d2 (hrun.parts t) hrun.mkdirs hrun.create
    (fun fo => hrun.room _ _ _ hposs d2 fo)
  have hend : code = 0 ∧ out' = (singleFile env (some (Infos version o)) c (x.pre ++ x.filename) w' out).2.2 := by
    have hex' := hex
    cases hex' with
    | badInfo h => exact absurd g.infos (h _)
    | acts extra r out' h ha =>
      have h : Main.getExtraInfo version o.extraInfo o.noGenerator = .ok extra := h
      rw [g.infos] at h; cases h
      rw [hact] at ha
      cases ha with
      | single config f hf =>
        cases hf
        rw [hdone.1]
        exact ⟨rfl, rfl⟩
      | several config ws r out' hlen => exact absurd rfl hlen
  obtain ⟨rfl, rfl⟩ := hend
  have hreq : ∀ fo, Output.Requested c.output m fo → ∃ p, fo = .path p ∧ InStore dir m.fileName m.debugId p := by
    intro fo hr
    rw [hceq] at hr
    cases hr with
    | file h => rcases h with h | ⟨d, h⟩ <;> cases h
    | store h hd hp =>
      rcases h with h | ⟨fo, h⟩
      · cases h; exact ⟨_, rfl, hp⟩
      · cases h
  have hun : ∀ fo, ¬ Output.Requested c.output m fo →
      Output.Untouched out (singleFile env (some (Infos version o)) c (x.pre ++ x.filename) w' out).2.2 fo := by
    intro fo hn
    rcases C89_single env version cpus { o with filenames := [x.pre ++ x.filename] } w' orders out _ hrun.results hrun.parts (x.pre ++ x.filename) rfl
      (C89_ends env version cpus { o with filenames := [x.pre ++ x.filename] } w' orders out _ 0 hrun.noList hex) fo with h | ⟨extra, config, m', _, h2, h3, h4, _⟩
    · exact h
    · rw [hact] at h2; cases h2
      rw [hread] at h3; cases h3
      exact absurd h4 hn
  refine ⟨rfl, ?_, ?_, ?_, ?_⟩
  · exact hun .stdout fun hr => by obtain ⟨p, h, _⟩ := hreq _ hr; cases h
  · exact hun .stderr fun hr => by obtain ⟨p, h, _⟩ := hreq _ hr; cases h
  · have hin : InStore dir m.fileName m.debugId (placeOf dir m) := (inStore_iff (dumps_no_slash d1)).mpr rfl
    refine ⟨placeOf dir m, Utf8.encode t, ⟨m, t, d1, hin, d2, rfl⟩, ?_⟩
    exact hdone.2 (.path (placeOf dir m)) (by rw [hceq]; exact .store (.inl rfl) hrun.named hin)
  · intro p hp
    refine hun (.path p) fun hr => ?_
    obtain ⟨q, e, hq⟩ := hreq _ hr
    cases e
    exact hp _ ⟨m, t, d1, hq, d2, rfl⟩

/-- Running the program on one file after the other.  Each run may find in the caches what others have put there. -/
inductive OneByOne (env : Env) (version : Str) (cpus : Nat) (o : Options) (w : Cache.World) (orders : Orders) :
    List Str → Output.World → Output.World → Prop where
  | done (out : Output.World) : OneByOne env version cpus o w orders [] out out
  | next (f : Str) (fs : List Str) (w' : Cache.World) (code : Nat) (out out1 out2 : Output.World) (hw : Meanwhile env w w')
      (h : Exits env version cpus { o with filenames := [f] } w' orders out code out1) (hs : OneByOne env version cpus o w orders fs out1 out2) :
      OneByOne env version cpus o w orders (f :: fs) out out2

/-- Every place of the store that belongs to one of the inputs holds its symbol file, and the rest is as it was. -/
structure Filled (env : Env) (mapping : Option (List Mapping.Generator)) (inlines : Bool) (infos : List Str) (dir : Str) (inputs : List Input)
    (out out' : Output.World) : Prop where
  stdout : out'.stdout = out.stdout
  stderr : out'.stderr = out.stderr
  stored : ∀ x ∈ inputs, ∀ p b, Stored env mapping inlines infos dir x p b → out'.files p = some b
  rest : ∀ p, (∀ x ∈ inputs, ∀ b, ¬ Stored env mapping inlines infos dir x p b) → out'.files p = out.files p

/-- An input has one place, with one symbol file. -/
theorem stored_unique {env : Env} {mapping : Option (List Mapping.Generator)} {inlines : Bool} {infos : List Str} {dir : Str} {x : Input} {p q : Str}
    {b c : Bytes} (h : Stored env mapping inlines infos dir x p b) (h' : Stored env mapping inlines infos dir x q c) : p = q ∧ b = c := by
  obtain ⟨m, t, d, i, e, rfl⟩ := h
  obtain ⟨m', t', d', i', e', rfl⟩ := h'
  unfold Input.Dumps at d d'
  rw [d] at d'; cases d'
  rw [inStore_iff (dumps_no_slash d)] at i i'
  rw [e] at e'; cases e'
  exact ⟨by rw [i, i'], rfl⟩

/-- Inputs with different debug ids have different places. -/
theorem stored_apart {env : Env} {mapping : Option (List Mapping.Generator)} {arch : Str} {w : Cache.World} {inlines : Bool} {infos : List Str} {dir : Str}
    {inputs : List Input} (hx : ∀ x ∈ inputs, x.Ok env mapping arch w infos) (hlines : ∀ l ∈ infos, OneLine l) (hdist : Distinct inputs) {x y : Input}
    (hxm : x ∈ inputs) (hym : y ∈ inputs) {p : Str} {b c : Bytes} (h : Stored env mapping inlines infos dir x p b)
    (h' : Stored env mapping inlines infos dir y p c) : x = y := by
  obtain ⟨m, t, d, i, e, rfl⟩ := h
  obtain ⟨m', t', d', i', e', rfl⟩ := h'
  have e1 := (dump_sound (hx x hxm).clear hlines d).2.2.1
  have e2 := (dump_sound (hx y hym).clear hlines d').2.2.1
  rw [inStore_iff (dumps_no_slash d)] at i
  rw [inStore_iff (dumps_no_slash d')] at i'
  have := store_path_id (dumps_no_slash d) (dumps_no_slash d') (e1 ▸ (hx x hxm).id) (e2 ▸ (hx y hym).id) (i.symm.trans i')
  exact hdist.mem hxm hym (by rw [← e1, ← e2, this])

theorem Filled.same {env : Env} {mapping : Option (List Mapping.Generator)} {inlines : Bool} {infos : List Str} {dir : Str} {inputs : List Input}
    {out out1 out2 : Output.World} (h : Filled env mapping inlines infos dir inputs out out1) (h' : Filled env mapping inlines infos dir inputs out out2) :
    out1.files = out2.files ∧ out1.stdout = out2.stdout ∧ out1.stderr = out2.stderr := by
  refine ⟨funext fun p => ?_, h.stdout.trans h'.stdout.symm, h.stderr.trans h'.stderr.symm⟩
  by_cases hp : ∃ x ∈ inputs, ∃ b, Stored env mapping inlines infos dir x p b
  · obtain ⟨x, hxm, b, hb⟩ := hp
    rw [h.stored x hxm p b hb, h'.stored x hxm p b hb]
  · have hn : ∀ x ∈ inputs, ∀ b, ¬ Stored env mapping inlines infos dir x p b := fun x hxm b hb => hp ⟨x, hxm, b, hb⟩
    rw [h.rest p hn, h'.rest p hn]

theorem filled_several {env : Env} {version : Str} {cpus : Nat} {o : Options} {inputs : List Input} {w : Cache.World} {orders : Orders}
    {mapping : Option (List Mapping.Generator)} {arch : Str} {k : Nat} {dir : Str}
    (hrun : Several env version o inputs w orders mapping arch k dir) (hout : o.output = none) (hdist : Distinct inputs) {out : Output.World}
    {code : Nat} {out' : Output.World} (hex : Exits env version cpus o w orders out code out') :
    code = 0 ∧ Filled env mapping o.inlines (Infos version o) dir inputs out out' := by
  obtain ⟨a1, a2, a3, a4, a5⟩ := stored_exactly hrun hout hdist out hex
  refine ⟨a1, a2, a3, fun x hx p b hb => ?_, a5⟩
  obtain ⟨q, c, hc, e⟩ := a4 x hx
  obtain ⟨rfl, rfl⟩ := stored_unique hb hc
  exact e

theorem filled_single {env : Env} {version : Str} {cpus : Nat} {o : Options} {inputs : List Input} {w : Cache.World} {orders : Orders}
    {mapping : Option (List Mapping.Generator)} {arch : Str} {k : Nat} {dir : Str}
    (hrun : Several env version o inputs w orders mapping arch k dir) (hout : o.output = none) (hdist : Distinct inputs) (hserver : o.symbolServer = none)
    (hdebug : o.debugId = none) (hcode : o.codeId = none) (xs : List Input) (hxs : ∀ x ∈ xs, x ∈ inputs) {out out' : Output.World}
    (h : OneByOne env version cpus o w orders (xs.map fun x => x.pre ++ x.filename) out out') :
    Filled env mapping o.inlines (Infos version o) dir xs out out' := by
  induction xs generalizing out with
  | nil =>
    cases h with
    | done => exact ⟨rfl, rfl, fun x hx => (by cases hx), fun p _ => rfl⟩
  | cons x xs ih =>
    cases h with
    | next _ _ w' code _ out1 _ hw h1 hs =>
      obtain ⟨_, b2, b3, ⟨p0, b0, b4, b5⟩, b6⟩ := single_exactly hrun hout hserver hdebug hcode hw (hxs x (by simp)) out h1
      have hf := ih (fun y hy => hxs y (by simp [hy])) hs
      refine ⟨hf.stdout.trans b2, hf.stderr.trans b3, fun y hy p b hb => ?_, fun p hp => ?_⟩
      · by_cases hlater : ∃ z ∈ xs, ∃ c, Stored env mapping o.inlines (Infos version o) dir z p c
        · obtain ⟨z, hz, c, hc⟩ := hlater
          have := stored_apart (hrun.each w .start) hrun.lines hdist (hxs y hy) (hxs z (by simp [hz])) hb hc
          subst this
          exact hf.stored y hz p b hb
        · have hyx : y = x := by
            rcases List.mem_cons.mp hy with h | h
            · exact h
            · exact absurd ⟨y, h, b, hb⟩ hlater
          subst hyx
          rw [hf.rest p fun z hz c hc => hlater ⟨z, hz, c, hc⟩]
          obtain ⟨rfl, rfl⟩ := stored_unique hb b4
          exact b5
      · rw [hf.rest p fun z hz c hc => hp z (by simp [hz]) c hc]
        exact b6 p fun b hb => hp x (by simp) b hb

/-- **C99, one after the other.** When no two inputs have the same debug id, running the program on one file after the other leaves the same files as
running it on all of them at once. -/
theorem C99_one_by_one (env : Env) (version : Str) (cpus cpus' : Nat) (o : Options) (inputs : List Input) (w : Cache.World) (orders : Orders)
    (mapping : Option (List Mapping.Generator)) (arch : Str) (k : Nat) (dir : Str) (hrun : Several env version o inputs w orders mapping arch k dir)
    (hdist : Distinct inputs) (hout : o.output = none) (hserver : o.symbolServer = none) (hdebug : o.debugId = none) (hcode : o.codeId = none)
    (out : Output.World) {code : Nat} {out1 out2 : Output.World} (h : OneByOne env version cpus o w orders o.filenames out out1)
    (h' : Exits env version cpus' o w orders out code out2) :
    code = 0 ∧ out1.files = out2.files ∧ out1.stdout = out2.stdout ∧ out1.stderr = out2.stderr := by
  obtain ⟨h1, h2⟩ := filled_several hrun hout hdist h'
  rw [hrun.files] at h
  exact ⟨h1, (filled_single hrun hout hdist hserver hdebug hcode inputs (fun _ h => h) h).same h2⟩

/-- **C99, again.** A second run over the files, with other numbers of jobs and CPUs and another schedule, leaves the files as the first one left them,
whatever the first one put in the caches. -/
theorem C99_again (env : Env) (version : Str) (cpus cpus' : Nat) (o : Options) (inputs : List Input) (w w' : Cache.World) (orders orders' : Orders)
    (mapping : Option (List Mapping.Generator)) (arch : Str) (k : Nat) (dir : Str) (hrun : Several env version o inputs w orders mapping arch k dir)
    (hrun' : Several env version o inputs w' orders' mapping arch k dir) (hdist : Distinct inputs) (hout : o.output = none)
    (out : Output.World) {code code' : Nat} {out1 out2 : Output.World} (h : Exits env version cpus o w orders out code out1)
    (h' : Exits env version cpus' o w' orders' out1 code' out2) :
    code' = 0 ∧ out2.files = out1.files ∧ out2.stdout = out1.stdout ∧ out2.stderr = out1.stderr := by
  obtain ⟨_, h2⟩ := filled_several hrun hout hdist h
  obtain ⟨h3, h4⟩ := filled_several hrun' hout hdist h'
  refine ⟨h3, funext fun p => ?_, h4.stdout, h4.stderr⟩
  by_cases hp : ∃ x ∈ inputs, ∃ b, Stored env mapping o.inlines (Infos version o) dir x p b
  · obtain ⟨x, hxm, b, hb⟩ := hp
    rw [h2.stored x hxm p b hb, h4.stored x hxm p b hb]
  · exact h4.rest p fun x hxm b hb => hp ⟨x, hxm, b, hb⟩

/-! ### The two files of `Props/Jobs.lean`, one after the other -/

def aloneConfig (f : Str) : Config := match actionOf 1 { jobOptions false with filenames := [f] } with | .dump c => c | _ => exConfig

/-- What a run on one file leaves. -/
def aloneOut (f : Str) (out : Output.World) : Output.World := (singleFile exEnv2 (some []) (aloneConfig f) f exDisk3 out).2.2

theorem jobsOneByOne : OneByOne exEnv2 (str% "1.0") 1 (jobOptions false) exDisk3 exOrders (jobOptions false).filenames Output.emptyWorld
    (aloneOut (str% "/d/c") (aloneOut (str% "/d/a") Output.emptyWorld)) :=
  .next _ _ exDisk3 _ _ _ _ .start (.acts [] _ _ rfl (.single (aloneConfig (str% "/d/a")) _ rfl))
    (.next _ _ exDisk3 _ _ _ _ .start (.acts [] _ _ rfl (.single (aloneConfig (str% "/d/c")) _ rfl)) (.done _))

/-- They leave what the run over both leaves, and a file in the store after the first of them is not yet the other one. -/
example : (aloneOut (str% "/d/c") (aloneOut (str% "/d/a") Output.emptyWorld)).files = (jobLast false).out.files ∧
    ((jobLast false).out.files (str% "/s/c/D1/c.sym")).isSome ∧ ((aloneOut (str% "/d/a") Output.emptyWorld).files (str% "/s/c/D1/c.sym")) = none := by
  obtain ⟨_, h, _⟩ := C99_one_by_one _ _ _ _ _ _ _ _ _ _ _ _ (jobSeveral false) (jobDistinct false) rfl rfl rfl rfl _ jobsOneByOne jobRun_exits
  exact ⟨h, by decide +kernel, by decide +kernel⟩

def againThreads : Threads.Env :=
  threads exEnv2 (some []) (jobConfig false) (jobOptions false).filenames (fun _ => exDisk3) exOrders none (str% "x86_64") (jobLast false).out

/-- The same run again, where the first one has left its files. -/
def againLast : Threads.Moment :=
  played againThreads (Output.callsOf exEnv2.io (some []) (jobConfig false).output (jobConfig false).checkCfi) (jobLast false).out (whole (jobRun 0 1))

theorem again_exits : Exits exEnv2 (str% "1.0") 4 (jobOptions false) exDisk3 exOrders (jobLast false).out 0 againLast.out :=
  .acts [] (.ok ()) _ rfl (.several (jobConfig false) (fun _ => exDisk3) (.ok ()) _ (by decide) (fun _ => .start)
    (.returned none (str% "x86_64") againLast rfl (played_moments (by decide +kernel)) (by decide +kernel)))

example : againLast.out.files = (jobLast false).out.files ∧ (againLast.out.files (str% "/s/c/D1/c.sym")).isSome := by
  obtain ⟨_, h, _⟩ := C99_again _ _ _ _ _ _ _ _ _ _ _ _ _ _ (jobSeveral false) (jobSeveral false) (jobDistinct false) rfl _ jobRun_exits again_exits
  exact ⟨h, by rw [h]; decide +kernel⟩

end Run
end DumpSyms
