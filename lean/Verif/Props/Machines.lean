import Verif.Props.WinJobs
import Verif.Props.Hosts
/-!
# C124: the same symbol files on a Windows machine and on another one

The stores of a run on a Windows machine (`Model/WinRun`) and of a run on another machine (`Model/Run`) over the same files.
-/
namespace DumpSyms
namespace WinHost
open Dumper (Env Alike)
open Run (Orders Options Infos Input Distinct)
open Dumper (Config)
open ObjectInfo Collector Reader

/-- The two machines have the same libraries, and the source files that path mappings look at are the same. -/
structure SameTools (env env' : Env) : Prop where
  dm : env'.dm = env.dm
  detect : env'.detect = env.detect
  us : env'.us = env.us
  map : env'.map = env.map

/-- The input in another directory. -/
def moved (pre : Input → Str) (x : Input) : Input := { x with pre := pre x }

/-- The module of an input is the same on both machines. -/
theorem dumps_moved {env env' : Env} (ht : SameTools env env') {x : Input} (ha : Alike x.platform x.obj env.os env'.os env.canon env'.canon)
    (pre : Input → Str) (mapping : Option (List Mapping.Generator)) (inlines : Bool) (m : ObjectInfo) :
    (moved pre x).Dumps env' mapping inlines m ↔ x.Dumps env mapping inlines m := by
  have hc : (moved pre x).cenv env' mapping = x.cenv (env.on env'.os env'.canon) mapping := by
    unfold Input.cenv Dumper.cenv moved
    simp only [Dumper.Env.on, ht.dm, ht.detect, ht.us]
    have h1 : Dumper.mappingFn env' (if x.opts then mapping else none) =
        Dumper.mappingFn { env with os := env'.os, canon := env'.canon } (if x.opts then mapping else none) := by
      unfold Dumper.mappingFn; simp only [ht.map]
    have h2 : Dumper.mappingPanics env' (if x.opts then mapping else none) =
        Dumper.mappingPanics { env with os := env'.os, canon := env'.canon } (if x.opts then mapping else none) := by
      unfold Dumper.mappingPanics; simp only [ht.map]
    rw [h1, h2]
  unfold Input.Dumps
  rw [hc]
  have := Dumper.C100_object env ha x.name x.pe x.peName (if x.opts then mapping else none) (inlines && x.opts)
  unfold Dumper.fromObject at this
  exact Iff.of_eq (congrArg (· = Res.ok m) this)

/-- The places of an input in the two stores, and what is there. -/
theorem stored_machines {env env' : Env} (ht : SameTools env env') {x : Input} (ha : Alike x.platform x.obj env.os env'.os env.canon env'.canon)
    {pre : Input → Str} {mapping : Option (List Mapping.Generator)} {inlines : Bool} {infos : List Str} {dir dir' p p' : Str} {b b' : Bytes}
    (hclear : x.Clear env mapping infos) (hlines : ∀ l ∈ infos, OneLine l) (h : Run.Stored env mapping inlines infos dir x p b)
    (h' : Stored env' mapping inlines infos dir' (moved pre x) p' b') :
    b' = b ∧ ∃ name, DumpSyms.InStore dir name x.obj.debugId p ∧ InStore dir' name x.obj.debugId p' := by
  obtain ⟨m, t, d, i, e, rfl⟩ := h
  obtain ⟨m', t', d', i', e', rfl⟩ := h'
  rw [dumps_moved ht ha] at d'
  have : m' = m := by unfold Input.Dumps at d d'; rw [d] at d'; cases d'; rfl
  subst this
  rw [e] at e'; cases e'
  have hid := (Run.dump_sound hclear hlines d).2.2.1
  rw [hid] at i i'
  exact ⟨rfl, _, i, i'⟩

/-- **C124, where source paths are recorded alike.** Files with different debug ids are stored by a run on a Windows machine and by a run on another
machine, from whatever directories: if both end, they end with status 0, and the symbol file of each input is under the same name, with the same
contents, in both stores. -/
theorem C124_stores_partial (env env' : Env) (ht : SameTools env env') (version : Str) (cpus cpus' : Nat) (o o' : Options) (inputs : List Input)
    (pre : Input → Str) (w w' : Cache.World) (orders orders' : Orders) (mapping : Option (List Mapping.Generator)) (arch arch' : Str) (k k' : Nat) (dir dir' : Str)
    (hrun : Run.Several env version o inputs w orders mapping arch k dir)
    (hrun' : Several env' version o' (inputs.map (moved pre)) w' orders' mapping arch' k' dir')
    (hdist : Distinct inputs) (hout : o.output = none) (hout' : o'.output = none)
    (hinl : o'.inlines = o.inlines) (hinfo : Infos version o' = Infos version o)
    (halike : ∀ x ∈ inputs, Alike x.platform x.obj env.os env'.os env.canon env'.canon)
    (out out' : Output.World) {code code' : Nat} {after after' : Output.World}
    (h : Run.Exits env version cpus o w orders out code after) (h' : Exits env' version cpus' o' w' orders' out' code' after') :
    code = 0 ∧ code' = 0 ∧ ∀ x ∈ inputs, ∃ name p p' b, DumpSyms.InStore dir name x.obj.debugId p ∧ InStore dir' name x.obj.debugId p' ∧
      after.files p = some b ∧ after'.files p' = some b := by
  have hdist' : Distinct (inputs.map (moved pre)) := by
    unfold Distinct at hdist ⊢
    rw [List.map_map]
    exact hdist
  obtain ⟨a1, _, _, a4, _⟩ := Run.stored_exactly hrun hout hdist out h
  obtain ⟨b1, _, _, b4, _⟩ := stored_exactly hrun' hout' hdist' out' h'
  refine ⟨a1, b1, fun x hx => ?_⟩
  obtain ⟨p, b, hs, hp⟩ := a4 x hx
  obtain ⟨p', b', hs', hp'⟩ := b4 _ (List.mem_map_of_mem hx)
  rw [hinl, hinfo] at hs'
  obtain ⟨rfl, name, i, i'⟩ := stored_machines ht (halike x hx) (hrun.each w .start x hx).clear hrun.lines hs hs'
  exact ⟨name, p, p', _, i, i', hp, hp'⟩

/-- **C124 for one file, where source paths are recorded alike.** One of the files dumped on its own on either machine. -/
theorem C124_one_partial (env env' : Env) (ht : SameTools env env') (version : Str) (cpus cpus' : Nat) (o o' : Options) (inputs : List Input)
    (pre : Input → Str) (w w' : Cache.World) (orders orders' : Orders) (mapping : Option (List Mapping.Generator)) (arch arch' : Str) (k k' : Nat) (dir dir' : Str)
    (hrun : Run.Several env version o inputs w orders mapping arch k dir)
    (hrun' : Several env' version o' (inputs.map (moved pre)) w' orders' mapping arch' k' dir')
    (hout : o.output = none) (hout' : o'.output = none) (hserver : o.symbolServer = none) (hserver' : o'.symbolServer = none)
    (hdebug : o.debugId = none) (hdebug' : o'.debugId = none) (hcode : o.codeId = none) (hcode' : o'.codeId = none)
    (hinl : o'.inlines = o.inlines) (hinfo : Infos version o' = Infos version o) (x : Input) (hx : x ∈ inputs)
    (halike : Alike x.platform x.obj env.os env'.os env.canon env'.canon)
    (out out' : Output.World) {code code' : Nat} {after after' : Output.World}
    (h : Run.Exits env version cpus { o with filenames := [x.pre ++ x.filename] } w orders out code after)
    (h' : Exits env' version cpus' { o' with filenames := [pre x ++ x.filename] } w' orders' out' code' after') :
    code = 0 ∧ code' = 0 ∧ ∃ name p p' b, DumpSyms.InStore dir name x.obj.debugId p ∧ InStore dir' name x.obj.debugId p' ∧
      after.files p = some b ∧ after'.files p' = some b := by
  obtain ⟨a1, _, _, ⟨p, b, hs, hp⟩, _⟩ := Run.single_exactly hrun hout hserver hdebug hcode .start hx out h
  obtain ⟨b1, _, _, ⟨p', b', hs', hp'⟩, _⟩ := single_exactly hrun' hout' hserver' hdebug' hcode' .start (List.mem_map_of_mem (f := moved pre) hx) out' h'
  rw [hinl, hinfo] at hs'
  obtain ⟨rfl, name, i, i'⟩ := stored_machines ht halike (hrun.each w .start x hx).clear hrun.lines hs hs'
  exact ⟨a1, b1, name, p, p', _, i, i', hp, hp'⟩

/-! ### Where it fails -/

/-- The file of `Props/Hosts.lean`, which has a function of `../src/x.c` compiled in `/build/a`, on a Windows machine. -/
def otherEnv : Env := { winEnv with parsers := Run.hostEnv.parsers }
def otherWorld : Cache.World := Dumper.exWorld [(str% "C:\\d\\a", .file [1] true)]
def otherOptions : Options := { Run.exOptions [str% "C:\\d\\a"] with store := some (str% "D:\\") }
def otherConfig : Config := match Run.actionOf 4 otherOptions with | .dump c => c | _ => Dumper.exConfig
def otherOut : Output.World := (singleFile otherEnv (some []) otherConfig (str% "C:\\d\\a") otherWorld Output.emptyWorld).2.2

theorem otherExits : Exits otherEnv (str% "1.0") 4 otherOptions otherWorld Run.exOrders Output.emptyWorld 0 otherOut := by
  have h1 : Exits otherEnv (str% "1.0") 4 otherOptions otherWorld Run.exOrders Output.emptyWorld _ _ :=
    .acts [] _ _ rfl (.single otherConfig (str% "C:\\d\\a") rfl)
  have h : (singleFile otherEnv (some []) otherConfig (str% "C:\\d\\a") otherWorld Output.emptyWorld).1 = .ok () := by decide +kernel
  rw [h] at h1
  exact h1

/-- **C124 is false**: on Linux the paths of an ELF file are resolved, on a Windows machine they are not. -/
theorem C124_stores_witness :
    SameTools (Run.hostEnv.on .linux fun _ => none) otherEnv ∧
    Run.Exits (Run.hostEnv.on .linux fun _ => none) (str% "1.0") 4 Run.hostOptions Run.hostWorld Run.exOrders Output.emptyWorld 0 (Run.hostOut .linux) ∧
    Exits otherEnv (str% "1.0") 4 otherOptions otherWorld Run.exOrders Output.emptyWorld 0 otherOut ∧
    (Run.hostOut .linux).files (str% "/s/a/E1/a.sym") =
      some (Utf8.encode (str% "MODULE Linux x86_64 E1 a\nFILE 0 /build/src/x.c\nFUNC 2000 10 0 b()\n2000 10 20 0\nSTACK CFI 1\n")) ∧
    otherOut.files (str% "D:\\a\\E1\\a.sym") =
      some (Utf8.encode (str% "MODULE Linux x86_64 E1 a\nFILE 0 /build/a/../src/x.c\nFUNC 2000 10 0 b()\n2000 10 20 0\nSTACK CFI 1\n")) :=
  ⟨⟨rfl, rfl, rfl, rfl⟩, Run.C100_machines_witness.1, otherExits, Run.C100_machines_witness.2.2.1, by decide +kernel⟩

/-! ### The samples of C94 and C123 -/

theorem jobTools : SameTools Run.exEnv2 winEnv2 := ⟨rfl, rfl, rfl, rfl⟩

theorem jobAlike (x : Input) (hx : x ∈ Run.jobInputs false) : Alike x.platform x.obj Run.exEnv2.os winEnv2.os Run.exEnv2.canon winEnv2.canon := by
  have key : ∀ (platform : Platform) (o : ObjInput), (platform = .linux ∨ platform = .mac) → o.functions = .ok [some mB1] →
      Alike platform o Run.exEnv2.os winEnv2.os Run.exEnv2.canon winEnv2.canon := by
    intro platform o hpl ho
    refine Dumper.alike_resolved _ _ _ ?_
    rintro fs h f hm c i hr path hp
    rw [ho] at h
    cases h
    simp only [List.mem_cons, Option.some.injEq, List.not_mem_nil, or_false] at hm
    subst hm
    have : c = sampleComp ∧ i = sampleFile3 := by
      cases hr with
      | here _ l hl => simp only [mB1, Func.lines, List.mem_cons, List.not_mem_nil, or_false] at hl; subst hl; exact ⟨rfl, rfl⟩
      | inlined _ g _ _ hg _ => cases hg
    obtain ⟨rfl, rfl⟩ := this
    have hq := (recordedPath_iff { platform, canonicalize := false, canon := fun _ => none, mapping := fun _ => none } _ _ path).mp
      ⟨path, hp, (fun h => by cases h), fun _ => rfl⟩
    have hq : path = str% "/c/y.c" := by
      rw [hq]
      rcases hpl with rfl | rfl <;> decide +kernel
    subst hq
    exact ⟨fun r h => (by rcases h with h | h <;> cases h), by rcases hpl with rfl | rfl <;> (unfold Resolved; decide +kernel)⟩
  simp only [Run.jobInputs, Bool.false_eq_true, if_false, List.mem_cons, List.not_mem_nil, or_false] at hx
  rcases hx with rfl | rfl
  · exact key _ _ (.inl rfl) rfl
  · exact key _ _ (.inr rfl) rfl

/-- The two runs, on Linux into `/s` and on a Windows machine into `D:\\`, store the same for the two files. -/
example : ∀ x ∈ Run.jobInputs false, ∃ name p p' b, DumpSyms.InStore (str% "/s") name x.obj.debugId p ∧ InStore (str% "D:\\") name x.obj.debugId p' ∧
    (Run.jobLast false).out.files p = some b ∧ (jobLast false).out.files p' = some b :=
  (C124_stores_partial _ _ jobTools _ _ _ _ _ _ (fun _ => str% "C:\\d\\") _ _ _ _ _ _ _ _ _ _ _ (Run.jobSeveral false) (jobSeveral false) (Run.jobDistinct false) rfl rfl
    rfl rfl jobAlike _ _ Run.jobRun_exits jobRun_exits).2.2

example : (Run.jobLast false).out.files (str% "/s/c/D1/c.sym") = (jobLast false).out.files (str% "D:\\c\\D1\\c.sym") ∧
    ((jobLast false).out.files (str% "D:\\c\\D1\\c.sym")).isSome := ⟨by decide +kernel, by decide +kernel⟩

end WinHost
end DumpSyms
