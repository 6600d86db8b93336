import Verif.Model.WinMoments
import Verif.Props.WinRunSamples
/-!
# C128: what has been written when a process on a Windows machine is stopped
-/
namespace DumpSyms
namespace WinHost
open WinPath
open Dumper (Env Config prepare)
open Run (Orders Options actionOf)
open Output (FileOutput Out IoEnv Todo finish Along Partway Untouched Begun along_make finish_make make_dest make_other makeAll makeAll_append
  makeAll_todoTo untouched_iff partway_iff)

/-- A module being written: the calls that are left only change what was asked for, and what is written is a beginning. -/
theorem written_inv {io : IoEnv} {extra : Option (List Str)} {out : Out} {checkCfi : Bool} {o : ObjectInfo} {w : Output.World} (hs : PlainStore out)
    (hn : WinProper o.fileName) (hi : WinProper o.debugId)
    (hch : ∀ t, (io.chunks t).flatten = Utf8.encode t) {ts : List Todo} {w' : Output.World} (h : Written io extra out checkCfi o w ts w') (fo : FileOutput) :
    (∀ t ∈ ts, ∀ f, t.dest = some f → Requested out o f) ∧ Along fo (Partway extra o fo (w.seen fo)) ts (w'.seen fo) ∧
      finish fo ts (w'.seen fo) = (store io extra out checkCfi o w).2.seen fo ∧ (¬Requested out o fo → w'.seen fo = w.seen fo) := by
  induction h with
  | start => exact ⟨fun t ht f hf => todoOf_dest hs hn hi ht hf, along_todoOf hch fo _, (todoOf_store io extra out checkCfi o fo w).2, fun _ => rfl⟩
  | call k t ts w' hk h ih =>
    obtain ⟨h1, h2, h3, h4⟩ := ih
    refine ⟨?_, along_make k h2, (finish_make fo k t ts w').trans h3, fun hr => ?_⟩
    · intro u hu f hf
      rcases List.mem_append.mp hu with hu | hu
      · rw [make_dest k t w' u hu] at hf
        exact h1 t (by simp) f hf
      · exact h1 u (by simp [hu]) f hf
    · rw [make_other fun e => hr (h1 t (by simp) fo e)]
      exact h4 hr

theorem makeAll_written {io : IoEnv} {extra : Option (List Str)} {out : Out} {checkCfi : Bool} {o : ObjectInfo} {w : Output.World} {ts : List Todo}
    {w' : Output.World} (h : Written io extra out checkCfi o w ts w') : Written io extra out checkCfi o w [] (makeAll ts w') := by
  induction ts generalizing w' with
  | nil => exact h
  | cons t ts ih =>
    have := Written.call t.enough t ts w' (by unfold Todo.enough; split <;> omega) h
    have h0 : (t.make t.enough w').1 = [] := by
      cases t with
      | mkdirs d => rfl
      | create p => rfl
      | write fo pos b => exact if_neg (show ¬ b.length + 1 < b.length by omega)
    rw [h0] at this
    exact ih this

/-- All the calls made, the module is written as `store` has it. -/
theorem makeAll_todoOf (io : IoEnv) (extra : Option (List Str)) (out : Out) (checkCfi : Bool) (o : ObjectInfo) (w : Output.World) :
    makeAll (callsOf io extra out checkCfi o) w = (store io extra out checkCfi o w).2 := by
  have hstore : ∀ p, makeAll (todoStore io (o.display extra) p).2 w = (writeStore io (o.display extra) p w).2 := by
    intro p
    unfold todoStore writeStore
    cases parent p with
    | none => rfl
    | some d =>
      simp only
      split
      · exact makeAll_todoTo io _ _ _
      · rfl
  unfold callsOf todoOf store
  split
  · rfl
  · simp only
    cases (destinations out o).2 with
    | none =>
      simp only
      cases (destinations out o).1 with
      | none => rfl
      | some fo' => exact makeAll_todoTo io _ fo' w
    | some p =>
      simp only
      rw [(todoStore_writeStore io (o.display extra) .stdout p w).1]
      cases (writeStore io (o.display extra) p w).1 with
      | ok u =>
        simp only
        cases (destinations out o).1 with
        | none => exact hstore p
        | some fo' =>
          simp only [makeAll_append, hstore p]
          exact makeAll_todoTo io _ fo' _
      | err m => exact hstore p
      | panic => exact hstore p

/-- A module that a process makes of its inputs, the input number `i` being read from the state `ws i` of the disk if there are several. -/
inductive Makes (env : Env) (extra : Option (List Str)) (config : Config) (files : List Str) (w : Cache.World) (ws : Nat → Cache.World)
    (orders : Orders) (out : Output.World) : ObjectInfo → Prop where
  | alone (f : Str) (m : ObjectInfo) (hf : files = [f]) (h : (readSingle env config f w).1 = .ok m) :
      Makes env extra config files w ws orders out m
  | several (mapping : Option (List Mapping.Generator)) (arch : Str) (l : List Nat) (m : ObjectInfo) (hf : files.length ≠ 1)
      (hp : prepare env config = .ok (mapping, arch))
      (h : Threads.MadeOnce (threads env extra config files ws orders mapping arch out) l m) : Makes env extra config files w ws orders out m

/-- Every module that a process with these options can make has a name and an identifier that Windows allows, and the store is not verbatim. -/
structure AllAllowed (env : Env) (cpus : Nat) (o : Options) (w : Cache.World) (orders : Orders) (out : Output.World) : Prop where
  plain : ∀ config, actionOf cpus o = .dump config → PlainStore config.output
  names : ∀ extra config ws m, actionOf cpus o = .dump config → (∀ i, Meanwhile env w (ws i)) →
    Makes env extra config o.filenames w ws orders out m → WinProper m.fileName ∧ WinProper m.debugId

/-- **C128 (partial).** At every moment of a process that dumps on a Windows machine, and so also when it is killed or crashes: what modules of at most one
debug id are written to is untouched, or has received a beginning of the symbol file of a module that was asked to be there.  In particular a file that was
not asked for is untouched.  Missing: an output file or stream to which modules of different debug ids are written, which can hold a
mixture (`C128_mixed_witness`); modules with names Windows does not allow. -/
theorem C128_moments_partial (env : Env) (version : Str) (cpus : Nat) (o : Options) (w : Cache.World) (orders : Orders) (out out' : Output.World)
    (horder : ∀ t, (orders.results t).Perm t) (hparts : ∀ t, (env.io.chunks t).flatten = Utf8.encode t)
    (hall : AllAllowed env cpus o w orders out)
    (h : During env version cpus o w orders out out') (fo : FileOutput)
    (hone : ∀ extra config ws m m', actionOf cpus o = .dump config → (∀ i, Meanwhile env w (ws i)) →
      Makes env extra config o.filenames w ws orders out m → Makes env extra config o.filenames w ws orders out m' → Requested config.output m fo → Requested config.output m' fo → m.debugId = m'.debugId) :
    Untouched out out' fo ∨ ∃ extra config ws m, Main.getExtraInfo version o.extraInfo o.noGenerator = .ok extra ∧ actionOf cpus o = .dump config ∧
      (∀ i, Meanwhile env w (ws i)) ∧ Makes env (some extra) config o.filenames w ws orders out m ∧ Requested config.output m fo ∧ Begun (some extra) out out' m fo := by
  cases h with
  | before => exact .inl (untouched_iff.mpr rfl)
  | single extra config f m todo out' h ha hf hm hw =>
    have hn := hall.names (some extra) config (fun _ => w) m ha (fun _ => .start) (.alone f m hf hm)
    obtain ⟨_, h2, _, h4⟩ := written_inv (hall.plain _ ha) hn.1 hn.2 hparts hw fo
    by_cases hr : Requested config.output m fo
    · rcases partway_iff.mp h2.now with h2 | h2
      · exact .inl h2
      · exact .inr ⟨extra, config, fun _ => w, m, h, ha, fun _ => .start, .alone f m hf hm, hr, h2⟩
    · exact .inl (untouched_iff.mpr (h4 hr))
  | several extra config mapping arch ws m hws h ha hf hp hw =>
    have hn := fun l o hm => hall.names (some extra) config ws o ha hws (.several mapping arch l o hf hp hm)
    have hg := Threads.moments_going_of (env := threads env (some extra) config o.filenames ws orders mapping arch out) (req := Requested config.output)
      (part := fun o fo => Partway (some extra) o fo (out.seen fo)) (fin := fun o fo => (store env.io (some extra) config.output config.checkCfi o out).2.seen fo)
      horder (fun _ _ hm _ ht _ hf => todoOf_dest (hall.plain _ ha) (hn _ _ hm).1 (hn _ _ hm).2 ht hf)
      (fun o => ⟨along_todoOf hparts fo _, (todoOf_store env.io (some extra) config.output config.checkCfi o fo out).2⟩)
      (fun l m1 l' m2 a b c d => hone _ _ ws _ _ ha hws (.several mapping arch l m1 hf hp a) (.several mapping arch l' m2 hf hp b) c d) hw
    have hinv := Threads.reach_inv (env := threads env (some extra) config o.filenames ws orders mapping arch out) horder hg.reach
    by_cases hq : ∃ d, m.s.Busy d ∧ Requested config.output d.info fo
    · obtain ⟨d, hd, hr⟩ := hq
      have hmade := Threads.madeOnce hinv (Threads.busy_out hd)
      have hpart : Partway (some extra) d.info fo (out.seen fo) (m.out.seen fo) := by
        rcases hd with hd | ⟨i, hd⟩
        · exact (hg.done d hd hr).1
        · exact (hg.going i d hd hr).1.now
      rcases partway_iff.mp hpart with h2 | h2
      · exact .inl h2
      · exact .inr ⟨extra, config, ws, d.info, h, ha, hws, .several mapping arch _ _ hf hp hmade, hr, h2⟩
    · refine .inl (untouched_iff.mpr (hg.quiet fun d hd hr => hq ⟨d, hd, hr⟩))

/-- **C128, the end.** The end of a dump is one of its moments. -/
theorem C128_ends (env : Env) (version : Str) (cpus : Nat) (o : Options) (w : Cache.World) (orders : Orders) (out out' : Output.World) (status : Nat)
    (hl : o.listArch = false) (h : Exits env version cpus o w orders out status out') : During env version cpus o w orders out out' := by
  cases h with
  | badInfo h => exact .before
  | acts extra r out' h ha =>
    obtain ⟨config, hc⟩ : ∃ config, actionOf cpus o = .dump config := by
      unfold actionOf
      rw [hl]
      exact ⟨_, rfl⟩
    rw [hc] at ha
    cases ha with
    | single config f hf =>
      unfold singleFile
      simp only
      cases hm : (readSingle env config f w).1 with
      | ok m =>
        refine .single extra config f m [] _ h hc hf hm ?_
        rw [← makeAll_todoOf]
        exact makeAll_written .start
      | err m => exact .before
      | panic => exact .before
    | several config ws r out' hf hw hs =>
      cases hs with
      | badOptions m h => exact .before
      | badMapping h => exact .before
      | returned mapping arch m hp hmom _ => exact .several extra config mapping arch ws m hw h hc hf hp hmom
      | crashed mapping arch m hp hmom _ => exact .several extra config mapping arch ws m hw h hc hf hp hmom

/-- **C128, one file.** At every moment of a dump of one file, each destination is untouched, or it was asked for and has received a beginning
of the symbol file. -/
theorem C128_single (env : Env) (version : Str) (cpus : Nat) (o : Options) (w : Cache.World) (orders : Orders) (out out' : Output.World)
    (horder : ∀ t, (orders.results t).Perm t) (hparts : ∀ t, (env.io.chunks t).flatten = Utf8.encode t) (f : Str) (hf : o.filenames = [f])
    (hall : AllAllowed env cpus o w orders out)
    (h : During env version cpus o w orders out out') (fo : FileOutput) :
    Untouched out out' fo ∨ ∃ extra config m, Main.getExtraInfo version o.extraInfo o.noGenerator = .ok extra ∧ actionOf cpus o = .dump config ∧
      (readSingle env config f w).1 = .ok m ∧ Requested config.output m fo ∧ Begun (some extra) out out' m fo := by
  have alone : ∀ extra config ws m, Makes env extra config o.filenames w ws orders out m → (readSingle env config f w).1 = .ok m := by
    intro extra config ws m h
    cases h with
    | alone g m hg h => rw [hf] at hg; cases hg; exact h
    | several mapping arch l m hl => rw [hf] at hl; exact absurd rfl hl
  rcases C128_moments_partial env version cpus o w orders out out' horder hparts hall h fo (fun extra config ws m m' _ _ h1 h2 _ _ => by
    have e1 := alone _ _ _ _ h1
    have e2 := alone _ _ _ _ h2
    rw [e1] at e2; cases e2; rfl) with h | ⟨extra, config, ws, m, h1, h2, _, h3, h4, h5⟩
  · exact .inl h
  · exact .inr ⟨extra, config, m, h1, h2, alone _ _ _ _ h3, h4, h5⟩

/-- **C128, the store.** At every moment of a dump into a store: a file at a place of the store is untouched, or has
received a beginning of the symbol file of a module with the debug id of the place. -/
theorem C128_store (env : Env) (version : Str) (cpus : Nat) (o : Options) (w : Cache.World) (orders : Orders) (out out' : Output.World)
    (horder : ∀ t, (orders.results t).Perm t) (hparts : ∀ t, (env.io.chunks t).flatten = Utf8.encode t)
    (hall : AllAllowed env cpus o w orders out) (dir : Str) (hd : dir ≠ [])
    (hstore : ∀ config, actionOf cpus o = .dump config → config.output = .store dir ∨ ∃ fo, config.output = .fileAndStore fo dir ∧
      ∀ extra ws m, (∀ i, Meanwhile env w (ws i)) → Makes env extra config o.filenames w ws orders out m → ∀ p, InStore dir m.fileName m.debugId p → fo ≠ .path p)
    (h : During env version cpus o w orders out out')
    (extra0 : Option (List Str)) (config0 : Config) (hc0 : actionOf cpus o = .dump config0) (ws0 : Nat → Cache.World)
    (hws0 : ∀ i, Meanwhile env w (ws0 i)) (m0 : ObjectInfo) (hm0 : Makes env extra0 config0 o.filenames w ws0 orders out m0) (p : Str) (hp : InStore dir m0.fileName m0.debugId p) :
    out'.files p = out.files p ∨ ∃ extra ws m part, Main.getExtraInfo version o.extraInfo o.noGenerator = .ok extra ∧
      (∀ i, Meanwhile env w (ws i)) ∧ Makes env (some extra) config0 o.filenames w ws orders out m ∧ m.debugId = m0.debugId ∧ InStore dir m.fileName m.debugId p ∧
      out'.files p = some part ∧ (part = [] ∨ ∃ t, m.display (some extra) = .ok t ∧ part <+: Utf8.encode t) := by
  have hst : config0.output = .store dir ∨ ∃ fo, config0.output = .fileAndStore fo dir := by
    rcases hstore _ hc0 with h | ⟨fo, h, _⟩
    · exact .inl h
    · exact .inr ⟨fo, h⟩
  have hpd : PlainDir dir := hall.plain _ hc0 dir hst hd
  have hn0 := hall.names _ _ _ _ hc0 hws0 hm0
  have hin : ∀ extra config ws m, actionOf cpus o = .dump config → (∀ i, Meanwhile env w (ws i)) →
      Makes env extra config o.filenames w ws orders out m → Requested config.output m (.path p) → InStore dir m.fileName m.debugId p := by
    intro extra config ws m hc hws hm hreq
    have hcc : config0 = config := by rw [hc] at hc0; cases hc0; rfl
    subst hcc
    cases hreq with
    | store hd' hne hp =>
      have : ∀ d', (config0.output = .store d' ∨ ∃ fo, config0.output = .fileAndStore fo d') → d' = dir := by
        rintro d' (e | ⟨fo, e⟩) <;> rcases hst with e' | ⟨fo', e'⟩ <;> rw [e] at e' <;> cases e' <;> rfl
      rw [this _ hd'] at hp
      exact hp
    | file hf =>
      exfalso
      rcases hstore _ hc0 with e | ⟨fo, e, hfo⟩
      · rcases hf with hf | ⟨d', hf⟩ <;> rw [e] at hf <;> cases hf
      · rcases hf with hf | ⟨d', hf⟩ <;> rw [e] at hf <;> cases hf
        exact hfo _ _ _ hws0 hm0 p hp rfl
  have heq : ∀ extra config ws m, actionOf cpus o = .dump config → (∀ i, Meanwhile env w (ws i)) →
      Makes env extra config o.filenames w ws orders out m → Requested config.output m (.path p) → m.debugId = m0.debugId := by
    intro extra config ws m hc hws hm hreq
    have hn := hall.names _ _ _ _ hc hws hm
    have h1 := (inStore_iff hpd hn.1 hn.2).mp (hin _ _ _ _ hc hws hm hreq)
    have h2 := (inStore_iff hpd hn0.1 hn0.2).mp hp
    exact (C104_distinct hn.1 hn0.1 hn.2 hn0.2 (h1.symm.trans h2)).1
  rcases C128_moments_partial env version cpus o w orders out out' horder hparts hall h (.path p) (fun extra config ws m m' hc hws h1 h2 r1 r2 =>
    (heq extra config ws m hc hws h1 r1).trans (heq extra config ws m' hc hws h2 r2).symm) with
    h | ⟨extra, config, ws, m, h1, h2, hws, h3, h4, part, h5, h6⟩
  · exact .inl h
  · have hcc : config0 = config := by rw [h2] at hc0; cases hc0; rfl
    subst hcc
    exact .inr ⟨extra, ws, m, part, h1, hws, h3, heq _ _ _ _ h2 hws h3 h4, hin _ _ _ _ h2 hws h3 h4, h5, h6⟩

/-! ## Samples -/

open Threads
open Run (exOrders played play played_moments whole Play makeSome)

/-- Two inputs with different debug ids and one output file. -/
def winMixOptions : Options := { winOptions winFiles with output := some (str% "out.sym"), store := none, numJobs := str% "2" }
def winMixConfig : Config := match actionOf 4 winMixOptions with | .dump c => c | _ => Dumper.exConfig
def winMixThreads : Threads.Env := threads winEnv (some []) winMixConfig winFiles (fun _ => winTwoDisk) exOrders none (str% "x86_64") Output.emptyWorld
def winMixCalls : ObjectInfo → List Todo := callsOf winEnv.io (some []) winMixConfig.output winMixConfig.checkCfi

/-- Both workers open the file; then one writes its module, and then the other. -/
def winMixLast : Moment := played winMixThreads winMixCalls Output.emptyWorld Run.mixRun

/-- **C128 is false for an output file of several modules.** The process ends with status 0, and the file holds neither of the two symbol files
nor a beginning of one, but one of them followed by the end of the other. -/
theorem C128_mixed_witness : ∃ out' a b ta tb, Exits winEnv (str% "2.3.4") 4 winMixOptions winTwoDisk exOrders Output.emptyWorld 0 out' ∧
    (parseInput winEnv winMixConfig none (str% "x86_64") (str% "C:\\d\\a") winTwoDisk).1 = .ok a ∧
    (parseInput winEnv winMixConfig none (str% "x86_64") (str% "C:\\d\\b") winTwoDisk).1 = .ok b ∧
    a.display (some []) = .ok ta ∧ b.display (some []) = .ok tb ∧
    out'.files (str% "out.sym") = some (Utf8.encode (tb ++ str% "K CFI 1\n")) ∧
    ¬ Utf8.encode (tb ++ str% "K CFI 1\n") <+: Utf8.encode ta ∧ ¬ Utf8.encode (tb ++ str% "K CFI 1\n") <+: Utf8.encode tb :=
  ⟨winMixLast.out, _, _, _, _, .acts [] (.ok ()) _ rfl (.several winMixConfig (fun _ => winTwoDisk) (.ok ()) _ (by decide) (fun _ => .start) (.returned none (str% "x86_64") winMixLast rfl
    (played_moments (by decide +kernel)) (by decide +kernel))), rfl, rfl, rfl, rfl, by decide +kernel, by decide +kernel, by decide +kernel⟩

theorem makeSome_written {io : IoEnv} {extra : Option (List Str)} {output : Out} {checkCfi : Bool} {o : ObjectInfo} {w : Output.World} {ks : List Nat}
    (hk : ∀ k ∈ ks, 0 < k) {r : List Todo × Output.World} (h : Written io extra output checkCfi o w r.1 r.2) :
    Written io extra output checkCfi o w (makeSome ks r).1 (makeSome ks r).2 := by
  induction ks generalizing r with
  | nil => exact h
  | cons k ks ih =>
    obtain ⟨ts, w'⟩ := r
    cases ts with
    | nil => exact h
    | cons t ts => exact ih (fun k hk' => hk k (by simp [hk'])) (.call k t ts w' (hk k (by simp)) h)

/-- A dump of one file, killed when eleven bytes of the symbol file are written. -/
def winCut : List Todo × Output.World := makeSome [1, 1, 7, 4] (callsOf winEnv.io (some []) winFailConfig.output winFailConfig.checkCfi winA, Output.emptyWorld)

theorem winCut_read : (readSingle winEnv winFailConfig (str% "C:\\d\\a") winTwoDisk).1 = .ok winA := rfl

theorem winCut_during : During winEnv (str% "2.3.4") 8 (winOptions [str% "C:\\d\\a"]) winTwoDisk exOrders Output.emptyWorld winCut.2 :=
  .single [] winFailConfig (str% "C:\\d\\a") winA winCut.1 winCut.2 rfl rfl rfl winCut_read (makeSome_written (by decide) .start)

theorem winCut_allowed : AllAllowed winEnv 8 (winOptions [str% "C:\\d\\a"]) winTwoDisk exOrders Output.emptyWorld where
  plain := fun config h => by cases h; exact winStore_plain
  names := by
    intro extra config ws m hc _ hm
    cases hc
    cases hm with
    | alone f m hf h =>
      cases hf
      have h' : (readSingle winEnv winFailConfig (str% "C:\\d\\a") winTwoDisk).1 = .ok m := h
      rw [winCut_read] at h'; cases h'
      exact winNames.1
    | several mapping arch l m hf => exact absurd rfl hf

/-- C128 applied: the place in the store has received a beginning of the symbol file, and everything else is untouched. -/
example : winCut.2.files (str% "C:\\store\\lib.so\\E1\\lib.so.sym") = some (Utf8.encode (str% "MODULE Linu")) ∧
    Begun (some []) Output.emptyWorld winCut.2 winA (.path (str% "C:\\store\\lib.so\\E1\\lib.so.sym")) ∧
    ∀ p, ¬ InStore (str% "C:\\store") (str% "lib.so") (str% "E1") p → Untouched Output.emptyWorld winCut.2 (.path p) := by
  have hall := C128_single winEnv (str% "2.3.4") 8 (winOptions [str% "C:\\d\\a"]) winTwoDisk exOrders Output.emptyWorld winCut.2 (fun t => .refl _)
    (by simp [winEnv, Dumper.exEnv, Output.goodDisk, Output.fullDisk]) (str% "C:\\d\\a") rfl winCut_allowed winCut_during
  have hwhat : ∀ fo, Untouched Output.emptyWorld winCut.2 fo ∨ (Requested (.store (str% "C:\\store")) winA fo ∧ Begun (some []) Output.emptyWorld winCut.2 winA fo) := by
    intro fo
    rcases hall fo with h | ⟨extra, config, m, h1, h2, h3, h4, h5⟩
    · exact .inl h
    · cases h1; cases h2
      have h3' : (readSingle winEnv winFailConfig (str% "C:\\d\\a") winTwoDisk).1 = .ok m := h3
      rw [winCut_read] at h3'; cases h3'
      exact .inr ⟨h4, h5⟩
  have hfile : winCut.2.files (str% "C:\\store\\lib.so\\E1\\lib.so.sym") = some (Utf8.encode (str% "MODULE Linu")) := by decide +kernel
  refine ⟨hfile, ?_, fun p hp => ?_⟩
  · rcases hwhat (.path (str% "C:\\store\\lib.so\\E1\\lib.so.sym")) with h | h
    · have : winCut.2.files (str% "C:\\store\\lib.so\\E1\\lib.so.sym") = none := h
      rw [hfile] at this; cases this
    · exact h.2
  · rcases hwhat (.path p) with h | ⟨h, _⟩
    · exact h
    · cases h with
      | file h => rcases h with h | ⟨d, h⟩ <;> cases h
      | store h _ hin =>
        rcases h with h | ⟨fo, h⟩
        · cases h; exact absurd hin hp
        · cases h

/-- The two inputs and a store: both workers are writing when the process is killed. -/
def winKillOptions : Options := { winOptions winFiles with numJobs := str% "2" }
def winKillConfig : Config := match actionOf 4 winKillOptions with | .dump c => c | _ => Dumper.exConfig
def winKillThreads : Threads.Env := threads winEnv (some []) winKillConfig winFiles (fun _ => winTwoDisk) exOrders none (str% "x86_64") Output.emptyWorld
def winKillLast : Moment :=
  played winKillThreads (callsOf winEnv.io (some []) winKillConfig.output winKillConfig.checkCfi) Output.emptyWorld Run.killRun

theorem winKill_during : During winEnv (str% "2.3.4") 4 winKillOptions winTwoDisk exOrders Output.emptyWorld winKillLast.out :=
  .several [] winKillConfig none (str% "x86_64") (fun _ => winTwoDisk) winKillLast (fun _ => .start) rfl rfl (by decide) rfl
    (played_moments (T := winKillThreads) (calls := callsOf winEnv.io (some []) winKillConfig.output winKillConfig.checkCfi) (by decide +kernel))

theorem winTwo_none : ∀ servers, getSymServers winEnv.home winTwoDisk.disk none ≠ .ok (some servers) := by
  intro servers h
  have : getSymServers winEnv.home winTwoDisk.disk none = .ok none := by decide +kernel
  rw [this] at h; cases h

theorem winKill_a : (parseInput winEnv winKillConfig none (str% "x86_64") (str% "C:\\d\\a") winTwoDisk).1 = .ok winA := rfl
theorem winKill_b : (parseInput winEnv winKillConfig none (str% "x86_64") (str% "C:\\d\\b") winTwoDisk).1 = .ok winB := rfl

theorem winKill_allowed : AllAllowed winEnv 4 winKillOptions winTwoDisk exOrders Output.emptyWorld where
  plain := fun config h => by cases h; exact winStore_plain
  names := by
    intro extra config ws m hc hws hm
    have hc' : config = winKillConfig := by cases hc; rfl
    subst hc'
    cases hm with
    | alone f m hf h => cases hf
    | several mapping arch l m hf hp h =>
      have hpre : prepare winEnv winKillConfig = .ok (none, str% "x86_64") := rfl
      rw [hpre] at hp; cases hp
      refine threads_names (fun i f o hi ho => ?_) h.2.2
      rw [← parse_start (hws i) winTwo_none] at ho
      have hf := List.mem_of_getElem? hi
      have hf' : f ∈ [str% "C:\\d\\a", str% "C:\\d\\b"] := hf
      simp only [List.mem_cons, List.not_mem_nil, or_false] at hf'
      rcases hf' with rfl | rfl
      · rw [winKill_a] at ho; cases ho; exact winNames.1
      · rw [winKill_b] at ho; cases ho; exact winNames.2

/-- C128 applied: the hypotheses are met, and both files are incomplete. -/
example : winKillLast.out.files (str% "C:\\store\\b\\D1\\b.sym") = some (Utf8.encode (str% "MODULE Mac")) ∧
    winKillLast.out.files (str% "C:\\store\\lib.so\\E1\\lib.so.sym") = some (Utf8.encode (str% "MODULE Linux x86")) ∧
    ∃ (m : ObjectInfo) (part : Bytes) (t : Str), m.debugId = str% "E1" ∧ winKillLast.out.files (str% "C:\\store\\lib.so\\E1\\lib.so.sym") = some part ∧ part ≠ [] ∧
      m.display (some []) = .ok t ∧ part <+: Utf8.encode t := by
  have hfile : winKillLast.out.files (str% "C:\\store\\lib.so\\E1\\lib.so.sym") = some (Utf8.encode (str% "MODULE Linux x86")) := by decide +kernel
  refine ⟨by decide +kernel, hfile, ?_⟩
  have hpd : PlainDir (str% "C:\\store") := winStore_plain _ (.inl rfl) (by decide)
  have h := C128_store winEnv (str% "2.3.4") 4 winKillOptions winTwoDisk exOrders Output.emptyWorld winKillLast.out (fun t => .refl _)
    (by simp [winEnv, Dumper.exEnv, Output.goodDisk, Output.fullDisk]) winKill_allowed (str% "C:\\store") (by decide) (fun config hc => by cases hc; exact .inl rfl)
    winKill_during (some []) winKillConfig rfl (fun _ => winTwoDisk) (fun _ => .start) winA
    (.several none (str% "x86_64") [0] winA (by decide) rfl ⟨by decide, by decide, .one 0 winA winKill_a⟩)
    (str% "C:\\store\\lib.so\\E1\\lib.so.sym") ((inStore_iff hpd winNames.1.1 winNames.1.2).mpr (by decide +kernel))
  rw [hfile] at h
  rcases h with h | ⟨extra, ws, m, part, h1, _, _, h3, _, h5, h6⟩
  · cases h
  · cases h1
    have hpart : part ≠ [] := by cases h5; decide +kernel
    rcases h6 with h6 | ⟨t, h6, h7⟩
    · exact absurd h6 hpart
    · exact ⟨m, part, t, h3.trans winIds.1, by rw [hfile]; exact h5, hpart, h6, h7⟩

end WinHost
end DumpSyms
