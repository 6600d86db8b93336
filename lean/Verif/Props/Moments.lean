import Verif.Props.SeveralSamples
/-!
# C89: what has been written when a process is stopped
-/
namespace DumpSyms
namespace Output

/-- A destination holds what it held before. -/
def Untouched (w w' : World) : FileOutput → Prop
  | .path p => w'.files p = w.files p
  | .stdout => w'.stdout = w.stdout
  | .stderr => w'.stderr = w.stderr

theorem untouched_iff {w w' : World} {fo : FileOutput} : Untouched w w' fo ↔ w'.seen fo = w.seen fo := by
  cases fo <;> simp [Untouched, World.seen]

/-- A destination has received a beginning of the symbol file of a module: nothing yet, a part, or all. -/
def Begun (extra : Option (List Str)) (w w' : World) (m : ObjectInfo) (fo : FileOutput) : Prop :=
  ∃ part, Holds w w' fo part ∧ (part = [] ∨ ∃ t, m.display extra = .ok t ∧ part <+: Utf8.encode t)

theorem partway_iff {extra : Option (List Str)} {m : ObjectInfo} {w w' : World} {fo : FileOutput} :
    Partway extra m fo (w.seen fo) (w'.seen fo) ↔ Untouched w w' fo ∨ Begun extra w w' m fo := by
  unfold Partway Begun
  rw [untouched_iff]
  constructor
  · rintro (h | ⟨pre, h1, h2⟩)
    · exact .inl h
    · exact .inr ⟨pre, by cases fo <;> simp_all [Holds, World.seen], h1⟩
  · rintro (h | ⟨pre, h2, h1⟩)
    · exact .inl h
    · exact .inr ⟨pre, h1, by cases fo <;> simp_all [Holds, World.seen]⟩

/-- A module being written: the calls that are left only change what was asked for, and what is written is a beginning. -/
theorem written_inv {io : IoEnv} {extra : Option (List Str)} {out : Out} {checkCfi : Bool} {o : ObjectInfo} {w : World} (hn : '/' ∉ o.fileName)
    (hch : ∀ t, (io.chunks t).flatten = Utf8.encode t) {ts : List Todo} {w' : World} (h : Written io extra out checkCfi o w ts w') (fo : FileOutput) :
    (∀ t ∈ ts, ∀ f, t.dest = some f → Requested out o f) ∧ Along fo (Partway extra o fo (w.seen fo)) ts (w'.seen fo) ∧
      finish fo ts (w'.seen fo) = (store io extra out checkCfi o w).2.seen fo ∧ (¬Requested out o fo → w'.seen fo = w.seen fo) := by
  induction h with
  | start => exact ⟨fun t ht f hf => todoOf_dest hn ht hf, along_todoOf hch fo _, (todoOf_store io extra out checkCfi o fo w).2, fun _ => rfl⟩
  | call k t ts w' hk h ih =>
    obtain ⟨h1, h2, h3, h4⟩ := ih
    refine ⟨?_, along_make k h2, (finish_make fo k t ts w').trans h3, fun hr => ?_⟩
    · intro u hu f hf
      rcases List.mem_append.mp hu with hu | hu
      · rw [make_dest k t w' u hu] at hf
        exact h1 t (by simp) f hf
      · exact h1 u (by simp [hu]) f hf
    · rw [make_other fun e => hr (h1 t (by simp) fo e)]
      exact h4 hr

/-- More bytes than a call has to write. -/
def Todo.enough : Todo → Nat
  | .write _ _ b => b.length + 1
  | _ => 1

/-- Making all of each call. -/
def makeAll : List Todo → World → World
  | [], w => w
  | t :: ts, w => makeAll ts (t.make t.enough w).2

theorem makeAll_append (a b : List Todo) (w : World) : makeAll (a ++ b) w = makeAll b (makeAll a w) := by
  induction a generalizing w with
  | nil => rfl
  | cons t a ih => exact ih _

theorem makeAll_written {io : IoEnv} {extra : Option (List Str)} {out : Out} {checkCfi : Bool} {o : ObjectInfo} {w : World} {ts : List Todo}
    {w' : World} (h : Written io extra out checkCfi o w ts w') : Written io extra out checkCfi o w [] (makeAll ts w') := by
  induction ts generalizing w' with
  | nil => exact h
  | cons t ts ih =>
    have := Written.call t.enough t ts w' (by unfold Todo.enough; split <;> omega) h
    have h0 : (t.make t.enough w').1 = [] := by
      cases t with
      | mkdirs d => rfl
      | create p => rfl
      | write fo pos b => exact if_neg (show ¬ b.length + 1 < b.length by omega)
    rw [h0] at this
    exact ih this

theorem makeAll_todoTo (io : IoEnv) (text : Res Str) (fo : FileOutput) (w : World) :
    makeAll (todoTo io text fo).2 w = (writeTo io text fo w).2 := by
  have ht : ∀ b : Bytes, b.take (b.length + 1) = b := fun b => List.take_of_length_le (by omega)
  unfold todoTo writeTo
  split
  · cases text with
    | ok t =>
      cases fo with
      | path p =>
        simp only [opening, List.cons_append, List.nil_append, makeAll, Todo.make, Todo.enough, ht, World.write, World.receive, World.mk.injEq, and_true]
        funext q
        by_cases h : q = p <;> simp [h, writeAt]
      | stdout => simp only [opening, List.nil_append, makeAll, Todo.make, Todo.enough, ht, World.write, World.receive]
      | stderr => simp only [opening, List.nil_append, makeAll, Todo.make, Todo.enough, ht, World.write, World.receive]
    | err m => cases fo <;> simp [opening, makeAll, Todo.make, World.receive]
    | panic => cases fo <;> simp [opening, makeAll, Todo.make, World.receive]
  · rfl

/-- All the calls made, the module is written as `store` has it. -/
theorem makeAll_todoOf (io : IoEnv) (extra : Option (List Str)) (out : Out) (checkCfi : Bool) (o : ObjectInfo) (w : World) :
    makeAll (callsOf io extra out checkCfi o) w = (store io extra out checkCfi o w).2 := by
  have hstore : ∀ p, makeAll (todoStore io (o.display extra) p).2 w = (writeStore io (o.display extra) p w).2 := by
    intro p
    unfold todoStore writeStore
    cases Path.parent p with
    | none => rfl
    | some d =>
      simp only
      split
      · exact makeAll_todoTo io _ _ _
      · rfl
  unfold callsOf todoOf store
  split
  · rfl
  · simp only
    cases (destinations out o).2 with
    | none =>
      simp only
      cases (destinations out o).1 with
      | none => rfl
      | some fo' => exact makeAll_todoTo io _ fo' w
    | some p =>
      simp only
      rw [(todoStore_writeStore io (o.display extra) .stdout p w).1]
      cases (writeStore io (o.display extra) p w).1 with
      | ok u =>
        simp only
        cases (destinations out o).1 with
        | none => exact hstore p
        | some fo' =>
          simp only [makeAll_append, hstore p]
          exact makeAll_todoTo io _ fo' _
      | err m => exact hstore p
      | panic => exact hstore p

end Output

namespace Run
open Dumper Output

/-- A module that a process makes of its inputs, the input number `i` being read from the state `ws i` of the disk if there are several. -/
inductive Makes (env : Env) (extra : Option (List Str)) (config : Config) (files : List Str) (w : Cache.World) (ws : Nat → Cache.World)
    (orders : Orders) (out : World) : ObjectInfo → Prop where
  | alone (f : Str) (m : ObjectInfo) (hf : files = [f]) (h : (readSingle env config f w).1 = .ok m) :
      Makes env extra config files w ws orders out m
  | several (mapping : Option (List Mapping.Generator)) (arch : Str) (l : List Nat) (m : ObjectInfo) (hf : files.length ≠ 1)
      (hp : prepare env config = .ok (mapping, arch))
      (h : Threads.MadeOnce (threads env extra config files ws orders mapping arch out) l m) : Makes env extra config files w ws orders out m

theorem single_no_slash {env : Env} {config : Config} {f : Str} {w : Cache.World} {m : ObjectInfo} (h : (readSingle env config f w).1 = .ok m) :
    '/' ∉ m.fileName := by
  unfold readSingle at h
  split at h
  · simp only at h
    split at h
    · split at h
      · exact C63_no_slash h
      · cases h
      · cases h
    · cases h
    · cases h
  · cases h
  · cases h

/-- **C89 (partial).** At every moment of a process that dumps, and so also when it is killed or crashes: what modules of at most one debug id
are written to is untouched, or has received a beginning of the symbol file of a module that was asked to be there.  In particular a file that was
not asked for is untouched.  Missing: an output file or stream to which modules of different debug ids are written, which can hold a
mixture (`C89_mixed_witness`). -/
theorem C89_moments_partial (env : Env) (version : Str) (cpus : Nat) (o : Options) (w : Cache.World) (orders : Orders) (out out' : World)
    (horder : ∀ t, (orders.results t).Perm t) (hparts : ∀ t, (env.io.chunks t).flatten = Utf8.encode t)
    (h : During env version cpus o w orders out out') (fo : FileOutput)
    (hone : ∀ extra config ws m m', actionOf cpus o = .dump config → (∀ i, Meanwhile env w (ws i)) →
      Makes env extra config o.filenames w ws orders out m → Makes env extra config o.filenames w ws orders out m' → Requested config.output m fo → Requested config.output m' fo → m.debugId = m'.debugId) :
    Untouched out out' fo ∨ ∃ extra config ws m, Main.getExtraInfo version o.extraInfo o.noGenerator = .ok extra ∧ actionOf cpus o = .dump config ∧
      (∀ i, Meanwhile env w (ws i)) ∧ Makes env (some extra) config o.filenames w ws orders out m ∧ Requested config.output m fo ∧ Begun (some extra) out out' m fo := by
  cases h with
  | before => exact .inl (untouched_iff.mpr rfl)
  | single extra config f m todo out' h ha hf hm hw =>
    obtain ⟨_, h2, _, h4⟩ := written_inv (single_no_slash hm) hparts hw fo
    by_cases hr : Requested config.output m fo
    · rcases partway_iff.mp h2.now with h2 | h2
      · exact .inl h2
      · exact .inr ⟨extra, config, fun _ => w, m, h, ha, fun _ => .start, .alone f m hf hm, hr, h2⟩
    · exact .inl (untouched_iff.mpr (h4 hr))
  | several extra config mapping arch ws m hws h ha hf hp hw =>
    have hg := Threads.moments_going (env := threads env (some extra) config o.filenames ws orders mapping arch out) horder
      (fun l o hm => made_no_slash hm.2.2) hparts (fo := fo)
      (fun l m1 l' m2 a b c d => hone _ _ ws _ _ ha hws (.several mapping arch l m1 hf hp a) (.several mapping arch l' m2 hf hp b) c d) hw
    have hinv := Threads.reach_inv (env := threads env (some extra) config o.filenames ws orders mapping arch out) horder hg.reach
    by_cases hq : ∃ d, m.s.Busy d ∧ Requested config.output d.info fo
    · obtain ⟨d, hd, hr⟩ := hq
      have hmade := Threads.madeOnce hinv (Threads.busy_out hd)
      have hpart : Partway (some extra) d.info fo (out.seen fo) (m.out.seen fo) := by
        rcases hd with hd | ⟨i, hd⟩
        · exact (hg.done d hd hr).1
        · exact (hg.going i d hd hr).1.now
      rcases partway_iff.mp hpart with h2 | h2
      · exact .inl h2
      · exact .inr ⟨extra, config, ws, d.info, h, ha, hws, .several mapping arch _ _ hf hp hmade, hr, h2⟩
    · refine .inl (untouched_iff.mpr (hg.quiet fun d hd hr => hq ⟨d, hd, hr⟩))

/-- The end of a dump is one of its moments. -/
theorem C89_ends (env : Env) (version : Str) (cpus : Nat) (o : Options) (w : Cache.World) (orders : Orders) (out out' : World) (status : Nat)
    (hl : o.listArch = false) (h : Exits env version cpus o w orders out status out') : During env version cpus o w orders out out' := by
  cases h with
  | badInfo h => exact .before
  | acts extra r out' h ha =>
    obtain ⟨config, hc⟩ : ∃ config, actionOf cpus o = .dump config := by
      unfold actionOf
      rw [hl]
      exact ⟨_, rfl⟩
    rw [hc] at ha
    cases ha with
    | single config f hf =>
      unfold singleFile
      simp only
      cases hm : (readSingle env config f w).1 with
      | ok m =>
        refine .single extra config f m [] _ h hc hf hm ?_
        rw [← makeAll_todoOf]
        exact makeAll_written .start
      | err m => exact .before
      | panic => exact .before
    | several config ws r out' hf hw hs =>
      cases hs with
      | badOptions m h => exact .before
      | badMapping h => exact .before
      | returned mapping arch m hp hmom _ => exact .several extra config mapping arch ws m hw h hc hf hp hmom
      | crashed mapping arch m hp hmom _ => exact .several extra config mapping arch ws m hw h hc hf hp hmom

/-- **C89, the end.** When the process has crashed no thread makes a step any more, so nothing more is written; and a call that writes takes at least
one byte. -/
theorem C89_stopped (env : Threads.Env) (calls : ObjectInfo → List Output.Todo) (m : Threads.Moment) :
    (m.s.crashed = true → ∀ t : Threads.Turn, t.go env calls m = none) ∧ ∀ i, (Threads.Turn.call i 0).go env calls m = none := by
  refine ⟨fun h t => ?_, fun i => by simp [Threads.Turn.go]⟩
  cases t with
  | call i k => simp [Threads.Turn.go, h]
  | move a =>
    have : ∀ b, Threads.act env b m.s = none := fun b => by simp [Threads.act, h]
    cases a <;> simp [Threads.Turn.go, this]

/-- **C89, one file.** At every moment of a dump of one file, each destination is untouched, or it was asked for and has received a beginning
of the symbol file. -/
theorem C89_single (env : Env) (version : Str) (cpus : Nat) (o : Options) (w : Cache.World) (orders : Orders) (out out' : World)
    (horder : ∀ t, (orders.results t).Perm t) (hparts : ∀ t, (env.io.chunks t).flatten = Utf8.encode t) (f : Str) (hf : o.filenames = [f])
    (h : During env version cpus o w orders out out') (fo : FileOutput) :
    Untouched out out' fo ∨ ∃ extra config m, Main.getExtraInfo version o.extraInfo o.noGenerator = .ok extra ∧ actionOf cpus o = .dump config ∧
      (readSingle env config f w).1 = .ok m ∧ Requested config.output m fo ∧ Begun (some extra) out out' m fo := by
  have alone : ∀ extra config ws m, Makes env extra config o.filenames w ws orders out m → (readSingle env config f w).1 = .ok m := by
    intro extra config ws m h
    cases h with
    | alone g m hg h => rw [hf] at hg; cases hg; exact h
    | several mapping arch l m hl => rw [hf] at hl; exact absurd rfl hl
  rcases C89_moments_partial env version cpus o w orders out out' horder hparts h fo (fun extra config ws m m' _ _ h1 h2 _ _ => by
    have e1 := alone _ _ _ _ h1
    have e2 := alone _ _ _ _ h2
    rw [e1] at e2; cases e2; rfl) with h | ⟨extra, config, ws, m, h1, h2, _, h3, h4, h5⟩
  · exact .inl h
  · exact .inr ⟨extra, config, m, h1, h2, alone _ _ _ _ h3, h4, h5⟩

/-- **C89, the store.** At every moment of a dump of several files into a store: a file at a place of the store is untouched, or has
received a beginning of the symbol file of a module with the debug id of the place. -/
theorem C89_store (env : Env) (version : Str) (cpus : Nat) (o : Options) (w : Cache.World) (orders : Orders) (out out' : World)
    (horder : ∀ t, (orders.results t).Perm t) (hparts : ∀ t, (env.io.chunks t).flatten = Utf8.encode t) (hf : o.filenames.length ≠ 1)
    (dir : Str) (hd : dir ≠ [])
    (hstore : ∀ config, actionOf cpus o = .dump config → config.output = .store dir ∨ ∃ fo, config.output = .fileAndStore fo dir ∧
      ∀ extra ws m, (∀ i, Meanwhile env w (ws i)) → Makes env extra config o.filenames w ws orders out m → ∀ p, InStore dir m.fileName m.debugId p → fo ≠ .path p)
    (hid : ∀ f ∈ o.filenames, ∀ config mapping arch w' m, actionOf cpus o = .dump config → prepare env config = .ok (mapping, arch) →
      Meanwhile env w w' → (parseInput env config mapping arch f w').1 = .ok m → ProperComp m.debugId)
    (h : During env version cpus o w orders out out')
    (extra0 : Option (List Str)) (config0 : Config) (hc0 : actionOf cpus o = .dump config0) (ws0 : Nat → Cache.World)
    (hws0 : ∀ i, Meanwhile env w (ws0 i)) (m0 : ObjectInfo) (hm0 : Makes env extra0 config0 o.filenames w ws0 orders out m0) (p : Str) (hp : InStore dir m0.fileName m0.debugId p) :
    out'.files p = out.files p ∨ ∃ extra ws m part, Main.getExtraInfo version o.extraInfo o.noGenerator = .ok extra ∧
      (∀ i, Meanwhile env w (ws i)) ∧ Makes env (some extra) config0 o.filenames w ws orders out m ∧ m.debugId = m0.debugId ∧ InStore dir m.fileName m.debugId p ∧
      out'.files p = some part ∧ (part = [] ∨ ∃ t, m.display (some extra) = .ok t ∧ part <+: Utf8.encode t) := by
  have hname : ∀ extra config ws m, Makes env extra config o.filenames w ws orders out m → '/' ∉ m.fileName := by
    intro extra config ws m h
    cases h with
    | alone g m hg h => exact single_no_slash h
    | several mapping arch l m _ _ h => exact made_no_slash h.2.2
  have hids : ∀ extra config ws m, actionOf cpus o = .dump config → (∀ i, Meanwhile env w (ws i)) →
      Makes env extra config o.filenames w ws orders out m → ProperComp m.debugId := by
    intro extra config ws m hc hws h
    cases h with
    | alone g m hg h => rw [hg] at hf; exact absurd rfl hf
    | several mapping arch l m _ hprep h =>
      have hid1 : ∀ j m, (threads env extra config o.filenames ws orders mapping arch out).parse j = .ok m → ProperComp m.debugId := by
        intro j m ho
        cases hj : o.filenames[j]? with
        | none => simp only [threads, hj] at ho; cases ho
        | some g => rw [threads_parse hj] at ho; exact hid g (List.mem_of_getElem? hj) _ _ _ _ m hc hprep (hws j) ho
      obtain ⟨_, _, h⟩ := h
      cases h with
      | one f _ ho => exact hid1 f _ ho
      | more f l x p c ho _ hm => rw [(merge_ok hm).2]; exact hid1 f x ho
  rw [inStore_iff (hname _ _ _ _ hm0)] at hp
  have hsame : ∀ config extra ws m, actionOf cpus o = .dump config → Makes env extra config o.filenames w ws orders out m →
      Requested config.output m (.path p) → p = placeOf dir m := by
    intro config extra ws m hc hm hreq
    have hcc : config0 = config := by rw [hc] at hc0; cases hc0; rfl
    subst hcc
    rw [Output.requested_iff (hname _ _ _ _ hm)] at hreq
    rcases hstore config0 hc with h | ⟨fo, h, hfo⟩
    · rw [h] at hreq
      simp only [Output.destinations, Output.symStorePath_of_ne hd, reduceCtorEq, Option.some.injEq, Output.FileOutput.path.injEq,
        false_or, exists_eq_left'] at hreq
      exact hreq
    · rw [h] at hreq
      simp only [Output.destinations, Output.symStorePath_of_ne hd, Option.some.injEq, Output.FileOutput.path.injEq,
        exists_eq_left'] at hreq
      rcases hreq with hreq | hreq
      · exact absurd hreq (hfo _ _ _ hws0 hm0 p ((inStore_iff (hname _ _ _ _ hm0)).mpr hp))
      · exact hreq
  have heq : ∀ config extra ws m, actionOf cpus o = .dump config → (∀ i, Meanwhile env w (ws i)) →
      Makes env extra config o.filenames w ws orders out m →
      Requested config.output m (.path p) → m.debugId = m0.debugId := by
    intro config extra ws m hc hws hm hreq
    exact store_path_id (hname _ _ _ _ hm) (hname _ _ _ _ hm0) (hids _ _ _ _ hc hws hm) (hids _ _ _ _ hc0 hws0 hm0) ((hsame _ _ _ _ hc hm hreq).symm.trans hp)
  rcases C89_moments_partial env version cpus o w orders out out' horder hparts h (.path p) (fun extra config ws m m' hc hws h1 h2 r1 r2 =>
    (heq config extra ws m hc hws h1 r1).trans (heq config extra ws m' hc hws h2 r2).symm) with
    h | ⟨extra, config, ws, m, h1, h2, hws, h3, h4, part, h5, h6⟩
  · exact .inl h
  · have hcc : config0 = config := by rw [h2] at hc0; cases hc0; rfl
    subst hcc
    exact .inr ⟨extra, ws, m, part, h1, hws, h3, heq _ _ _ _ h2 hws h3 h4, (inStore_iff (hname _ _ _ _ h3)).mpr (hsame _ _ _ _ h2 h3 h4), h5, h6⟩

/-! ## Samples -/

open Threads

/-- Two inputs with different debug ids and one output file. -/
def mixOptions : Options := { exOptions exFiles with output := some (str% "out.sym"), store := none, numJobs := str% "2" }
def mixConfig : Config := match actionOf 4 mixOptions with | .dump c => c | _ => exConfig
def mixThreads : Threads.Env := threads exEnv (some []) mixConfig exFiles (fun _ => exDisk) exOrders none (str% "x86_64") emptyWorld
def mixCalls : ObjectInfo → List Todo := Output.callsOf exEnv.io (some []) mixConfig.output mixConfig.checkCfi

/-- Both workers open the file; then one writes its module, and then the other. -/
def mixRun : List Play :=
  whole ([.send, .send] ++ steps 0 13 ++ steps 1 1 ++ steps 0 3) ++ [.turn (.call 0 1), .turn (.call 1 1), .calls 0, .calls 1] ++
    whole (steps 0 2 ++ steps 1 2 ++ [.join, .join])
def mixLast : Moment := played mixThreads mixCalls emptyWorld mixRun

/-- **C89 is false for an output file of several modules.** The process ends with status 0, and the file holds neither of the two symbol files
nor a beginning of one, but one of them followed by the end of the other. -/
theorem C89_mixed_witness : ∃ out' a b ta tb, Exits exEnv (str% "2.3.4") 4 mixOptions exDisk exOrders emptyWorld 0 out' ∧
    (parseInput exEnv mixConfig none (str% "x86_64") (str% "/d/a") exDisk).1 = .ok a ∧
    (parseInput exEnv mixConfig none (str% "x86_64") (str% "/d/b") exDisk).1 = .ok b ∧
    a.display (some []) = .ok ta ∧ b.display (some []) = .ok tb ∧
    out'.files (str% "out.sym") = some (Utf8.encode (tb ++ str% "K CFI 1\n")) ∧
    ¬ Utf8.encode (tb ++ str% "K CFI 1\n") <+: Utf8.encode ta ∧ ¬ Utf8.encode (tb ++ str% "K CFI 1\n") <+: Utf8.encode tb :=
  ⟨mixLast.out, _, _, _, _, .acts [] (.ok ()) _ rfl (.several mixConfig (fun _ => exDisk) (.ok ()) _ (by decide) (fun _ => .start) (.returned none (str% "x86_64") mixLast rfl
    (played_moments (by decide +kernel)) (by decide +kernel))), rfl, rfl, rfl, rfl, by decide +kernel, by decide +kernel, by decide +kernel⟩

/-- Making calls, the bytes they take being given. -/
def makeSome : List Nat → List Todo × World → List Todo × World
  | k :: ks, (t :: ts, w) => makeSome ks ((t.make k w).1 ++ ts, (t.make k w).2)
  | _, r => r

theorem makeSome_written {io : IoEnv} {extra : Option (List Str)} {output : Out} {checkCfi : Bool} {o : ObjectInfo} {w : World} {ks : List Nat}
    (hk : ∀ k ∈ ks, 0 < k) {r : List Todo × World} (h : Written io extra output checkCfi o w r.1 r.2) :
    Written io extra output checkCfi o w (makeSome ks r).1 (makeSome ks r).2 := by
  induction ks generalizing r with
  | nil => exact h
  | cons k ks ih =>
    obtain ⟨ts, w'⟩ := r
    cases ts with
    | nil => exact h
    | cons t ts => exact ih (fun k hk' => hk k (by simp [hk'])) (.call k t ts w' (hk k (by simp)) h)

/-- A dump of one file, killed when eleven bytes of the symbol file are written. -/
def cut : List Todo × World := makeSome [1, 1, 7, 4] (Output.callsOf exEnv.io (some []) failConfig.output failConfig.checkCfi exA, emptyWorld)

theorem cut_during : During exEnv (str% "2.3.4") 8 (exOptions [str% "/d/a"]) exDisk exOrders emptyWorld cut.2 :=
  .single [] failConfig (str% "/d/a") exA cut.1 cut.2 rfl rfl rfl rfl (makeSome_written (by decide) .start)

/-- C89 applied: the place in the store has received a beginning of the symbol file, and everything else is untouched. -/
example : cut.2.files (str% "/s/lib.so/E1/lib.so.sym") = some (Utf8.encode (str% "MODULE Linu")) ∧
    Begun (some []) emptyWorld cut.2 exA (.path (str% "/s/lib.so/E1/lib.so.sym")) ∧
    ∀ p, ¬ InStore (str% "/s") (str% "lib.so") (str% "E1") p → Untouched emptyWorld cut.2 (.path p) := by
  have hall := C89_single exEnv (str% "2.3.4") 8 (exOptions [str% "/d/a"]) exDisk exOrders emptyWorld cut.2 (fun t => .refl _)
    (by simp [exEnv, goodDisk, fullDisk]) (str% "/d/a") rfl cut_during
  have hwhat : ∀ fo, Untouched emptyWorld cut.2 fo ∨ (Requested (.store (str% "/s")) exA fo ∧ Begun (some []) emptyWorld cut.2 exA fo) := by
    intro fo
    rcases hall fo with h | ⟨extra, config, m, h1, h2, h3, h4, h5⟩
    · exact .inl h
    · cases h1; cases h2
      have hm : (readSingle exEnv failConfig (str% "/d/a") exDisk).1 = .ok exA := rfl
      have h3' : (readSingle exEnv failConfig (str% "/d/a") exDisk).1 = .ok m := h3
      have : m = exA := by rw [h3'] at hm; cases hm; rfl
      subst this
      exact .inr ⟨h4, h5⟩
  have hfile : cut.2.files (str% "/s/lib.so/E1/lib.so.sym") = some (Utf8.encode (str% "MODULE Linu")) := by decide +kernel
  refine ⟨hfile, ?_, fun p hp => ?_⟩
  · rcases hwhat (.path (str% "/s/lib.so/E1/lib.so.sym")) with h | h
    · have : cut.2.files (str% "/s/lib.so/E1/lib.so.sym") = none := h
      rw [hfile] at this; cases this
    · exact h.2
  · rcases hwhat (.path p) with h | ⟨h, _⟩
    · exact h
    · cases h with
      | file h => rcases h with h | ⟨d, h⟩ <;> cases h
      | store h _ hin =>
        rcases h with h | ⟨fo, h⟩
        · cases h; exact absurd hin hp
        · cases h

/-- The two inputs and a store: both workers are writing when the process is killed. -/
def killOptions : Options := { exOptions exFiles with numJobs := str% "2" }
def killConfig : Config := match actionOf 4 killOptions with | .dump c => c | _ => exConfig
def killThreads : Threads.Env := threads exEnv (some []) killConfig exFiles (fun _ => exDisk) exOrders none (str% "x86_64") emptyWorld
def killRun : List Play :=
  whole ([.send, .send] ++ steps 0 13 ++ steps 1 1 ++ steps 0 3) ++
    [.turn (.call 0 1), .turn (.call 1 1), .turn (.call 1 1), .turn (.call 0 1), .turn (.call 0 6), .turn (.call 1 10), .turn (.call 0 10)]
def killLast : Moment :=
  played killThreads (Output.callsOf exEnv.io (some []) killConfig.output killConfig.checkCfi) emptyWorld killRun

theorem kill_during : During exEnv (str% "2.3.4") 4 killOptions exDisk exOrders emptyWorld killLast.out :=
  .several [] killConfig none (str% "x86_64") (fun _ => exDisk) killLast (fun _ => .start) rfl rfl (by decide) rfl
    (played_moments (T := killThreads) (calls := Output.callsOf exEnv.io (some []) killConfig.output killConfig.checkCfi) (by decide +kernel))

theorem exNone : ∀ servers, Cache.getSymServers exEnv.home exDisk.disk none ≠ .ok (some servers) := by
  intro servers h
  have : Cache.getSymServers exEnv.home exDisk.disk none = .ok none := by decide +kernel
  rw [this] at h; cases h

/-- C89 applied: the hypotheses are met, and both files are incomplete. -/
example : killLast.out.files (str% "/s/b/D1/b.sym") = some (Utf8.encode (str% "MODULE Mac")) ∧
    killLast.out.files (str% "/s/lib.so/E1/lib.so.sym") = some (Utf8.encode (str% "MODULE Linux x86")) ∧
    ∃ (m : ObjectInfo) (part : Bytes) (t : Str), m.debugId = str% "E1" ∧ killLast.out.files (str% "/s/lib.so/E1/lib.so.sym") = some part ∧ part ≠ [] ∧
      m.display (some []) = .ok t ∧ part <+: Utf8.encode t := by
  have ha : (parseInput exEnv killConfig none (str% "x86_64") (str% "/d/a") exDisk).1 = .ok exA := rfl
  have hb : (parseInput exEnv killConfig none (str% "x86_64") (str% "/d/b") exDisk).1 = .ok exB := rfl
  have hpre : prepare exEnv killConfig = .ok (none, str% "x86_64") := rfl
  have hfile : killLast.out.files (str% "/s/lib.so/E1/lib.so.sym") = some (Utf8.encode (str% "MODULE Linux x86")) := by decide +kernel
  refine ⟨by decide +kernel, hfile, ?_⟩
  have h := C89_store exEnv (str% "2.3.4") 4 killOptions exDisk exOrders emptyWorld killLast.out (fun t => .refl _)
    (by simp [exEnv, goodDisk, fullDisk]) (by decide) (str% "/s") (by decide) (fun config hc => by cases hc; exact .inl rfl)
    (by
      intro f hf config mapping arch w' m hc hp hw hm
      rw [← parse_start hw exNone] at hm
      have hc' : config = killConfig := by cases hc; rfl
      subst hc'
      rw [hpre] at hp; cases hp
      have hf' : f ∈ [str% "/d/a", str% "/d/b"] := hf
      simp only [List.mem_cons, List.not_mem_nil, or_false] at hf'
      rcases hf' with rfl | rfl
      · rw [ha] at hm; cases hm; rw [exIds.1]; exact ⟨by decide, by decide, by decide⟩
      · rw [hb] at hm; cases hm; rw [exIds.2]; exact ⟨by decide, by decide, by decide⟩)
    kill_during (some []) killConfig rfl (fun _ => exDisk) (fun _ => .start) exA
    (.several none (str% "x86_64") [0] exA (by decide) hpre ⟨by decide, by decide, .one 0 exA ha⟩)
    (str% "/s/lib.so/E1/lib.so.sym") ((inStore_iff (by decide)).mpr (by decide +kernel))
  rw [hfile] at h
  rcases h with h | ⟨extra, ws, m, part, h1, _, _, h3, _, h5, h6⟩
  · cases h
  · cases h1
    have hpart : part ≠ [] := by cases h5; decide +kernel
    rcases h6 with h6 | ⟨t, h6, h7⟩
    · exact absurd h6 hpart
    · exact ⟨m, part, t, h3.trans exIds.1, by rw [hfile]; exact h5, hpart, h6, h7⟩

end Run
end DumpSyms
