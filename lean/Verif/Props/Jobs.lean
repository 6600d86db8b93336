import Verif.Props.SeveralSamples
import Verif.Props.Moments
/-!
# C94: the number of jobs and the order of the files
-/
namespace DumpSyms
open ObjectInfo Collector Reader

namespace Run
open Dumper

/-- No two inputs have the same debug id. -/
def Distinct (inputs : List Input) : Prop := (inputs.map fun x => x.obj.debugId).Nodup

theorem Distinct.index {inputs : List Input} (h : Distinct inputs) {i j : Nat} {x y : Input} (hi : inputs[i]? = some x) (hj : inputs[j]? = some y)
    (he : x.obj.debugId = y.obj.debugId) : i = j := by
  have key : ∀ {i j : Nat} {x y : Input}, inputs[i]? = some x → inputs[j]? = some y → x.obj.debugId = y.obj.debugId → ¬ i < j := by
    intro i j x y hi hj he hlt
    obtain ⟨h1, e1⟩ := List.getElem?_eq_some_iff.mp hi
    obtain ⟨h2, e2⟩ := List.getElem?_eq_some_iff.mp hj
    have := List.pairwise_iff_getElem.mp h i j (by simpa using h1) (by simpa using h2) hlt
    simp only [List.getElem_map, e1, e2] at this
    exact this he
  have := key hi hj he
  have := key hj hi he.symm
  omega

theorem Distinct.mem {inputs : List Input} (h : Distinct inputs) {x y : Input} (hx : x ∈ inputs) (hy : y ∈ inputs)
    (he : x.obj.debugId = y.obj.debugId) : x = y := by
  obtain ⟨i, hi⟩ := List.getElem?_of_mem hx
  obtain ⟨j, hj⟩ := List.getElem?_of_mem hy
  have := h.index hi hj he
  subst this
  rw [hi] at hj
  cases hj
  rfl

theorem possible_alone {env : Env} {mapping : Option (List Mapping.Generator)} {infos : List Str}
    {inlines : Bool} {tables : List Nat → List (Str × Nat) → List (Str × Nat)} {inputs : List Input}
    (hx : ∀ x ∈ inputs, x.Clear env mapping infos) (hinfos : ∀ l ∈ infos, OneLine l) (hdist : Distinct inputs) {l : List Nat} {m : ObjectInfo}
    (h : Possible env mapping inlines tables inputs l m) : ∃ i x, l = [i] ∧ inputs[i]? = some x ∧ x.Dumps env mapping inlines m := by
  have ids : ∀ {l m}, Possible env mapping inlines tables inputs l m → ∃ j ∈ l, ∃ y, inputs[j]? = some y ∧ y.obj.debugId = m.debugId := by
    intro l m h
    cases h with
    | one i x m hi hm => exact ⟨i, by simp, x, hi, (dump_sound (hx x (List.mem_of_getElem? hi)) hinfos hm).2.2.1.symm⟩
    | more i l x m p c hi hm hl hp hc =>
      exact ⟨i, by simp, x, hi, by rw [(merge_ok hc).2, (dump_sound (hx x (List.mem_of_getElem? hi)) hinfos hm).2.2.1]⟩
  cases h with
  | one i x m hi hm => exact ⟨i, x, rfl, hi, hm⟩
  | more i l x m p c hi hm hl hp hc =>
    exfalso
    obtain ⟨j, hj, y, hy, e⟩ := ids hp
    have := hdist.index hi hy (by
      rw [e, ← (merge_ok hc).1, (dump_sound (hx x (List.mem_of_getElem? hi)) hinfos hm).2.2.1])
    subst this
    exact hl hj

/-- The symbol file of an input: where it is in the store, and what it holds. -/
def Stored (env : Env) (mapping : Option (List Mapping.Generator)) (inlines : Bool) (infos : List Str) (dir : Str) (x : Input) (p : Str) (b : Bytes) : Prop :=
  ∃ m t, x.Dumps env mapping inlines m ∧ InStore dir m.fileName m.debugId p ∧ m.display (some infos) = .ok t ∧ b = Utf8.encode t

theorem made_extra {env : Env} {extra extra' : Option (List Str)} {config : Config} {files : List Str} {ws : Nat → Cache.World} {orders : Orders}
    {mapping : Option (List Mapping.Generator)} {arch : Str} {out : Output.World} {l : List Nat} {m : ObjectInfo}
    (h : Threads.Made (threads env extra config files ws orders mapping arch out) l m) :
    Threads.Made (threads env extra' config files ws orders mapping arch out) l m := by
  induction h with
  | one i m hm => exact .one i m hm
  | more i l m p c hm _ hc ih => exact .more i l m p c hm ih hc

theorem dumps_no_slash {x : Input} {env : Env} {mapping : Option (List Mapping.Generator)} {inlines : Bool} {m : ObjectInfo}
    (h : x.Dumps env mapping inlines m) : '/' ∉ m.fileName := by
  rw [(fromObject_header h).1]
  exact fileNameOnly_no_slash _

/-- What a run over several files into a store leaves, when no two inputs have the same debug id: the symbol file of each input, and every other file
as it was. -/
theorem stored_exactly {env : Env} {version : Str} {cpus : Nat} {o : Options} {inputs : List Input} {w : Cache.World} {orders : Orders}
    {mapping : Option (List Mapping.Generator)} {arch : Str} {k : Nat} {dir : Str}
    (hrun : Several env version o inputs w orders mapping arch k dir) (hout : o.output = none) (hdist : Distinct inputs) (out : Output.World)
    {code : Nat} {out' : Output.World} (hex : Exits env version cpus o w orders out code out') :
    code = 0 ∧ out'.stdout = out.stdout ∧ out'.stderr = out.stderr ∧
    (∀ x ∈ inputs, ∃ p b, Stored env mapping o.inlines (Infos version o) dir x p b ∧ out'.files p = some b) ∧
    ∀ p, (∀ x ∈ inputs, ∀ b, ¬ Stored env mapping o.inlines (Infos version o) dir x p b) → out'.files p = out.files p := by
  obtain ⟨c, rules, g⟩ := hrun.goes cpus out
  have hx := hrun.each w .start
  have hlines := hrun.lines
  have hceq : c.output = .store dir := by
    have hact := g.action
    simp only [actionOf, hrun.noList, Bool.false_eq_true, if_false] at hact
    cases hact
    simp [Output.Out.ofOptions, hout, hrun.store]
  obtain ⟨hcode, ws, hws, hs⟩ := g.ends code out' hex
  -- what can be made is the dump of an input
  have hmakes : ∀ extra ws m, (∀ i, Meanwhile env w (ws i)) → Makes env extra c o.filenames w ws orders out m →
      ∃ x ∈ inputs, x.Dumps env mapping o.inlines m := by
    intro extra ws m hws hm
    cases hm with
    | alone f m hf h => rw [hrun.files] at hf; exact absurd (by have := congrArg List.length hf; simpa using this) hrun.notOne
    | several mapping' arch' l m hf hp h =>
      rw [g.prep] at hp; cases hp
      rw [hrun.files] at h
      obtain ⟨i, x, _, hi, hd⟩ := possible_alone (fun x h => (hx x h).clear) hlines hdist (g.made ws hws l m ⟨h.1, h.2.1, made_extra h.2.2⟩)
      exact ⟨x, List.mem_of_getElem? hi, hd⟩
  have hno : ∀ {x : Input} {m : ObjectInfo}, x.Dumps env mapping o.inlines m → '/' ∉ m.fileName := fun hd => dumps_no_slash hd
  have hreq : ∀ m fo, Output.Requested c.output m fo → ∃ p, fo = .path p ∧ InStore dir m.fileName m.debugId p := by
    intro m fo hr
    rw [hceq] at hr
    cases hr with
    | file h => rcases h with h | ⟨d, h⟩ <;> cases h
    | store h hd hp =>
      rcases h with h | ⟨fo, h⟩
      · cases h; exact ⟨_, rfl, hp⟩
      · cases h
  have hpid : ∀ {x : Input} {m : ObjectInfo}, x ∈ inputs → x.Dumps env mapping o.inlines m → ProperComp m.debugId := by
    intro x m hmem hd
    rw [(dump_sound (hx x hmem).clear hlines hd).2.2.1]
    exact (hx x hmem).id
  have hmom := C89_ends env version cpus o w orders out out' code hrun.noList hex
  have hc : ∀ config, actionOf cpus o = .dump config → config = c := by
    intro config h; rw [g.action] at h; cases h; rfl
  have hun : ∀ fo, (∀ x ∈ inputs, ∀ m, x.Dumps env mapping o.inlines m → ¬ Output.Requested c.output m fo) → Output.Untouched out out' fo := by
    intro fo hnone
    rcases C89_moments_partial env version cpus o w orders out out' hrun.results hrun.parts hmom fo (by
      intro extra config ws m m' hac hws h1 h2 r1 r2
      cases hc config hac
      obtain ⟨x, hxm, hd⟩ := hmakes extra ws m hws h1
      exact absurd r1 (hnone x hxm m hd)) with h | ⟨extra, config, ws, m, h1, h2, h3, h4, h5, h6⟩
    · exact h
    · cases hc config h2
      obtain ⟨x, hxm, hd⟩ := hmakes _ ws m h3 h4
      exact absurd h5 (hnone x hxm m hd)
  refine ⟨hcode, ?_, ?_, ?_, ?_⟩
  · exact hun .stdout (fun x _ m _ hr => by obtain ⟨p, h, _⟩ := hreq m _ hr; cases h)
  · exact hun .stderr (fun x _ m _ hr => by obtain ⟨p, h, _⟩ := hreq m _ hr; cases h)
  · intro x hmem
    obtain ⟨i, hi⟩ := List.getElem?_of_mem hmem
    obtain ⟨mi, ti, fi, d1, d2, d3, d4⟩ := g.dump x hmem
    obtain ⟨l, m, t, p, m1, m2, m3, m4, m5, m6⟩ := C68_stored_partial env (some (Infos version o)) c _ ws orders out out' mapping arch
      (by simpa using hrun.notOne) g.prep hrun.results (fun i f hf => g.parse _ (hws i) f (List.mem_of_getElem? hf)) (g.works ws hws) dir hrun.named
      (.inl hceq) hs i (x.pre ++ x.filename) (by simp [hi]) mi ((g.reads _ (hws i) x hmem mi).mpr d1)
    obtain ⟨j, y, _, hj, hd⟩ := possible_alone (fun x h => (hx x h).clear) hlines hdist (g.made ws hws l m m1)
    have hy := List.mem_of_getElem? hj
    have : y = x := hdist.mem hy hmem (by
      rw [← (dump_sound (hx y hy).clear hlines hd).2.2.1, m3, (dump_sound (hx x hmem).clear hlines d1).2.2.1])
    subst this
    exact ⟨p, _, ⟨m, t, hd, m5, m4, rfl⟩, m6⟩
  · intro p hp
    refine hun (.path p) (fun x hmem m hd hr => ?_)
    obtain ⟨q, e, hq⟩ := hreq m _ hr
    cases e
    obtain ⟨mi, ti, fi, d1, d2, d3, d4⟩ := g.dump x hmem
    have : mi = m := by unfold Input.Dumps at d1 hd; rw [d1] at hd; cases hd; rfl
    subst this
    exact hp x hmem _ ⟨_, ti, hd, hq, d2, rfl⟩

/-- **C94.** Two runs over the same files, given in any order and with any number of jobs, CPUs, schedules and hash orders, and from any states of the
disk in which the inputs can be read: if they store into the same directory and no two inputs have the same debug id, they end with status 0 if they
end, and leave the same files. -/
theorem C94_same (env : Env) (version : Str) (cpus cpus' : Nat) (o o' : Options) (inputs inputs' : List Input) (w w' : Cache.World) (orders orders' : Orders)
    (mapping : Option (List Mapping.Generator)) (arch arch' : Str) (k k' : Nat) (dir : Str)
    (hrun : Several env version o inputs w orders mapping arch k dir) (hrun' : Several env version o' inputs' w' orders' mapping arch' k' dir)
    (hperm : inputs'.Perm inputs) (hdist : Distinct inputs) (hout : o.output = none) (hout' : o'.output = none)
    (hinl : o'.inlines = o.inlines) (hinfo : Infos version o' = Infos version o) (out : Output.World) {code code' : Nat} {out1 out2 : Output.World}
    (h : Exits env version cpus o w orders out code out1) (h' : Exits env version cpus' o' w' orders' out code' out2) :
    code = 0 ∧ code' = 0 ∧ out1.files = out2.files ∧ out1.stdout = out2.stdout ∧ out1.stderr = out2.stderr := by
  have hdist' : Distinct inputs' := (hperm.map _).nodup_iff.mpr hdist
  obtain ⟨a1, a2, a3, a4, a5⟩ := stored_exactly hrun hout hdist out h
  obtain ⟨b1, b2, b3, b4, b5⟩ := stored_exactly hrun' hout' hdist' out h'
  rw [hinl, hinfo] at b4 b5
  refine ⟨a1, b1, ?_, a2.trans b2.symm, a3.trans b3.symm⟩
  have hx := hrun.each w .start
  have uniq : ∀ {x y : Input} {p b c}, x ∈ inputs → y ∈ inputs → Stored env mapping o.inlines (Infos version o) dir x p b →
      Stored env mapping o.inlines (Infos version o) dir y p c → b = c := by
    rintro x y p b c hxm hym ⟨m, t, d, i, e, rfl⟩ ⟨m', t', d', i', e', rfl⟩
    have e1 := (dump_sound (hx x hxm).clear hrun.lines d).2.2.1
    have e2 := (dump_sound (hx y hym).clear hrun.lines d').2.2.1
    rw [inStore_iff (dumps_no_slash d)] at i
    rw [inStore_iff (dumps_no_slash d')] at i'
    have := store_path_id (dumps_no_slash d) (dumps_no_slash d') (e1 ▸ (hx x hxm).id) (e2 ▸ (hx y hym).id) (i.symm.trans i')
    have hxy := hdist.mem hxm hym (by rw [← e1, ← e2, this])
    subst hxy
    unfold Input.Dumps at d d'
    rw [d] at d'; cases d'
    rw [e] at e'; cases e'
    rfl
  -- the place of an input is where the other run has it too
  have place : ∀ {x : Input} {p q b c}, Stored env mapping o.inlines (Infos version o) dir x p b → Stored env mapping o.inlines (Infos version o) dir x q c → p = q := by
    rintro x p q b c ⟨m, t, d, i, e, rfl⟩ ⟨m', t', d', i', e', rfl⟩
    unfold Input.Dumps at d d'
    rw [d] at d'; cases d'
    rw [inStore_iff (dumps_no_slash d)] at i i'
    rw [i, i']
  funext p
  by_cases hp : ∃ x ∈ inputs, ∃ b, Stored env mapping o.inlines (Infos version o) dir x p b
  · obtain ⟨x, hxm, b, hb⟩ := hp
    obtain ⟨q, c, hc, e⟩ := a4 x hxm
    obtain ⟨q', c', hc', e'⟩ := b4 x (hperm.mem_iff.mpr hxm)
    cases place hc hb
    cases place hc' hb
    rw [e, e', uniq hxm hxm hc hc']
  · have hn : ∀ x ∈ inputs, ∀ b, ¬ Stored env mapping o.inlines (Infos version o) dir x p b := fun x hxm b hb => hp ⟨x, hxm, b, hb⟩
    rw [a5 p hn, b5 p (fun x hxm => hn x (hperm.mem_iff.mp hxm))]


/-! ### Two runs -/

/-- A run with the ELF file and the Mach-O file, in either order. -/
def jobInputs (swap : Bool) : List Input := if swap then [in2, in0] else [in0, in2]
def jobOptions (swap : Bool) : Options :=
  { exOptions3 with filenames := if swap then [str% "/d/c", str% "/d/a"] else [str% "/d/a", str% "/d/c"], numJobs := if swap then str% "3" else str% "2" }

theorem jobInputs_mem {swap : Bool} {x : Input} (h : x ∈ jobInputs swap) : x ∈ exInputs := by
  cases swap <;> simp [jobInputs] at h <;> rcases h with rfl | rfl <;> simp [exInputs]

theorem jobDistinct (swap : Bool) : Distinct (jobInputs swap) := by cases swap <;> unfold Distinct <;> decide

theorem jobDumps {swap : Bool} {x : Input} {m : ObjectInfo} (hx : x ∈ jobInputs swap) (h : x.Dumps exEnv2 none true m) : m = d0 ∨ m = d2 := by
  cases swap <;> simp only [jobInputs, Bool.false_eq_true, if_false, if_true, List.mem_cons, List.not_mem_nil, or_false] at hx <;>
    rcases hx with rfl | rfl <;> cases h
  · exact .inl rfl
  · exact .inr rfl
  · exact .inr rfl
  · exact .inl rfl

theorem jobSeveral (swap : Bool) :
    Several exEnv2 (str% "1.0") (jobOptions swap) (jobInputs swap) exDisk3 exOrders none (str% "x86_64") 2 (str% "/s") where
  sha := exSeveral.sha
  order := exSeveral.order
  noList := rfl
  files := by cases swap <;> rfl
  notOne := by cases swap <;> decide
  info := by intro v hv; cases hv
  lines := by intro l hl; cases hl
  sane := exSeveral.sane
  results := exSeveral.results
  hashes := exSeveral.hashes
  rules := rfl
  knownArch := rfl
  each := fun w hw x hx => exInputs_each hw (jobInputs_mem hx)
  size := by
    intro x hx m hm
    rcases jobDumps hx hm with rfl | rfl <;> decide +kernel
  below := by cases swap <;> decide
  cfi := fun h x hx => exSeveral.cfi h x (jobInputs_mem hx)
  store := rfl
  named := by decide
  output := by intro f h; cases h
  parts := exSeveral.parts
  mkdirs := fun _ => rfl
  create := fun _ => rfl
  room := by
    intro l m t hm ht fo
    obtain ⟨i, x, _, hi, hd⟩ := possible_alone (fun x hx => (exInputs_each .start (jobInputs_mem hx)).clear) (by intro l hl; cases hl) (jobDistinct swap) hm
    have hb : lengthOf d0 ≤ 1000000 ∧ lengthOf d2 ≤ 1000000 := by decide +kernel
    have hl : lengthOf m ≤ 1000000 := by
      rcases jobDumps (List.mem_of_getElem? hi) hd with rfl | rfl <;> simp [hb]
    have ht' : m.display (some []) = .ok t := ht
    unfold lengthOf at hl
    rw [ht'] at hl
    exact hl

def jobConfig (swap : Bool) : Config := match actionOf 4 (jobOptions swap) with | .dump c => c | _ => exConfig
def jobThreads (swap : Bool) : Threads.Env :=
  threads exEnv2 (some []) (jobConfig swap) (jobOptions swap).filenames (fun _ => exDisk3) exOrders none (str% "x86_64") Output.emptyWorld

/-- The one worker reads both files and the other one stores a module; which is which depends on the run. -/
def jobRun (i j : Nat) : List Threads.Action :=
  List.replicate 2 .send ++ Threads.steps i 13 ++ Threads.steps j 1 ++ Threads.steps i 5 ++ Threads.steps j 2 ++ [.join, .join]

def jobLast (swap : Bool) : Threads.Moment :=
  played (jobThreads swap) (Output.callsOf exEnv2.io (some []) (jobConfig swap).output (jobConfig swap).checkCfi) Output.emptyWorld
    (whole (if swap then jobRun 1 0 else jobRun 0 1))

theorem jobRun_exits : Exits exEnv2 (str% "1.0") 4 (jobOptions false) exDisk3 exOrders Output.emptyWorld 0 (jobLast false).out :=
  .acts [] (.ok ()) _ rfl (.several (jobConfig false) (fun _ => exDisk3) (.ok ()) _ (by decide) (fun _ => .start)
    (.returned none (str% "x86_64") (jobLast false) rfl (played_moments (by decide +kernel)) (by decide +kernel)))

theorem jobSwapped_exits : Exits exEnv2 (str% "1.0") 4 (jobOptions true) exDisk3 exOrders Output.emptyWorld 0 (jobLast true).out :=
  .acts [] (.ok ()) _ rfl (.several (jobConfig true) (fun _ => exDisk3) (.ok ()) _ (by decide) (fun _ => .start)
    (.returned none (str% "x86_64") (jobLast true) rfl (played_moments (by decide +kernel)) (by decide +kernel)))

/-- Two runs that end, with the files in another order and another number of jobs, leave the same, which is something. -/
example : (jobLast false).out.files = (jobLast true).out.files ∧
    ((jobLast false).out.files (str% "/s/lib.so/E1/lib.so.sym")).isSome ∧ ((jobLast false).out.files (str% "/s/c/D1/c.sym")).isSome ∧
    Output.emptyWorld.files (str% "/s/c/D1/c.sym") = none := by
  obtain ⟨_, _, h, _⟩ := C94_same _ _ _ _ _ _ _ _ _ _ _ _ _ _ _ _ _ _ (jobSeveral false) (jobSeveral true) (.swap _ _ _) (jobDistinct false) rfl rfl rfl
    rfl _ jobRun_exits jobSwapped_exits
  exact ⟨h, by decide +kernel, by decide +kernel, rfl⟩

end Run
end DumpSyms
