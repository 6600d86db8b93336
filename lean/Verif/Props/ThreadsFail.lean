import Verif.Props.ThreadsSamples
/-!
# C90: what makes a worker of a run over several files panic
-/
namespace DumpSyms
namespace Threads

/-- Something that can make a worker panic: an input, a merge, or the writing of a module. -/
inductive Fatal (env : Env) : Prop
  | parse (f : Nat) : f < env.files → env.parse f = .panic → Fatal env
  | merge (f : Nat) (l : List Nat) (o p : ObjectInfo) : (f :: l).Nodup → (∀ g ∈ f :: l, g < env.files) → env.parse f = .ok o → Made env l p →
      o.debugId = p.debugId → ObjectInfo.merge (env.hash (f :: l)) o p = .panic → Fatal env
  | store (l : List Nat) (o : ObjectInfo) : MadeOnce env l o → env.store o = .panic → Fatal env

/-- Some worker panicked, the results are poisoned, or the main thread panicked. -/
def State.Panicky (s : State) : Prop := (∃ l k, .panicked l k ∈ s.ws) ∨ s.poisoned = true ∨ s.crashed = true

theorem panicky_step {env : Env} {s s' : State} (hi : Inv env s) (hc : s.Panicky → Fatal env) (h : Step env s s') (hp : s'.Panicky) : Fatal env := by
  cases h with
  | send | join => exact hc hp
  | crash l k ht hw => exact hc (.inl ⟨l, k, List.mem_of_getElem? hw⟩)
  | parsePanic a b f hw hpar => exact .parse f (mem_holds hi (w := .parsing f) (by simp [hw]) (by simp [W.holds])).1 hpar
  | mergePoisoned a b d hw _ hpo => exact hc (.inr (.inl hpo))
  | mergePanic a b d prev hw _ _ hl hm =>
    obtain ⟨f, o, rfl, hpo⟩ := hi.sane (.merging d) (by simp [hw])
    have hprev : prev ∈ s.out := mem_out.mpr (.inl ⟨_, lookup_mem hl⟩)
    obtain ⟨hf1, hf2⟩ := mem_holds hi (w := .merging { src := [f], info := o }) (by simp [hw]) (f := f) (by simp [W.holds])
    exact .merge f prev.src o prev.info
      (List.nodup_cons.mpr ⟨fun h => hf2 (src_merged hi hprev h), src_nodup hi hprev⟩)
      (fun g hg => by
        rcases List.mem_cons.mp hg with rfl | hg
        · exact hf1
        · exact merged_lt hi (src_merged hi hprev hg))
      hpo (hi.made prev hprev) (hi.key _ (lookup_mem hl)) hm
  | coordPoisoned a b hw _ hpo => exact hc (.inr (.inl hpo))
  | storePanic a b d hw hs => exact .store _ _ (madeOnce hi (carried hw rfl)) hs
  | dumpPanic a b d hw hs => exact .store _ _ (madeOnce hi (carried hw rfl)) hs
  | _ =>
    refine hc ?_
    rcases hp with ⟨l, k, h⟩ | h | h
    · refine .inl ⟨l, k, ?_⟩
      rw [‹s.ws = _ ++ _ :: _›]
      simp only [List.mem_append, List.mem_cons, reduceCtorEq, false_or] at h
      rcases h with h | h <;> simp [h]
    · exact .inr (.inl h)
    · exact .inr (.inr h)

/-- **C90, the threads.** If a thread panics, something made it. -/
theorem C90_threads (env : Env) (ho : env.Ok) (s : State) (h : Reachable env s) (hp : s.Panicky) : Fatal env := by
  induction h with
  | init =>
    rcases hp with ⟨l, k, h⟩ | h | h
    · simp [init] at h
    · cases h
    · cases h
  | step a hr ha ih => exact panicky_step (reach_inv ho hr) ih (act_step ha).2 hp

/-- A worker that returned an error, when no input gives one, got it from writing. -/
theorem reach_failed {env : Env} (ho : env.Ok) (hp : ∀ f, f < env.files → ∀ m, env.parse f ≠ .err m) {s : State} (h : Reachable env s) :
    ∀ l, .failed l ∈ s.ws → s.log ≠ [] := by
  induction h with
  | init => intro l h; simp [init] at h
  | @step s s' a hr ha ih =>
    have hi := reach_inv ho hr
    intro l hl
    cases (act_step ha).2 with
    | send | join | crash => exact ih l hl
    | parseErr a b f m hw hpe => exact absurd hpe (hp f (mem_holds hi (w := .parsing f) (by simp [hw]) (by simp [W.holds])).1 m)
    | mergeErr a b d prev m hw _ _ hlk hm => exact (no_mergeErr hi.key hlk hm).elim
    | abortEnd a b l l' hw => exact (hi.sane (.aborting l l' 0) (by simp [hw])).elim
    | storeOk | storeErr | storePanic | dumpOk | dumpErr | dumpPanic => exact List.cons_ne_nil _ _
    | _ =>
      refine ih l ?_
      rw [‹s.ws = _ ++ _ :: _›]
      simp only [List.mem_append, List.mem_cons, reduceCtorEq, false_or] at hl
      rcases hl with h | h <;> simp [h]

/-- If an input crashes (and no input fails with an error), a run over several files does not return, and nothing is written.  (It
crashes or hangs.) -/
theorem C90_no_return (env : Env) (ho : env.Ok) (hf : env.files ≠ 1) (f : Nat) (hlt : f < env.files) (hpan : env.parse f = .panic)
    (herr : ∀ g, g < env.files → ∀ m, env.parse g ≠ .err m) (s : State) (h : Reachable env s) : ¬ s.Returned env ∧ s.log = [] := by
  have hnot : ¬ s.Started := by
    intro hs
    obtain ⟨_, _, _, _, o, h1, _⟩ := C48_all_merged_first env ho s h hs f hlt
    rw [hpan] at h1; cases h1
  have hlog : s.log = [] := by
    refine Decidable.byContradiction fun hl => hnot (.inl hl)
  refine ⟨?_, hlog⟩
  rintro ⟨hc, ht, hj⟩
  have hi := reach_inv ho h
  cases hws : s.ws with
  | nil =>
    have hn : env.n = 0 := by have := hi.len; rw [hws] at this; simpa using this.symm
    have hcap := hi.cap
    have hlen := acct_len hi
    have hm := no_workers ho hn h
    have hq : (s.queue.flatMap Msg.inputs).length ≤ s.queue.length := by
      generalize s.queue = q
      induction q with
      | nil => simp
      | cons m q ih => cases m <;> simp only [List.flatMap_cons, Msg.inputs, List.length_append, List.length_cons, List.length_nil] <;> omega
    rw [ht, hws, hm] at hlen
    simp only [List.length_nil, List.flatMap_nil] at hlen
    omega
  | cons w l =>
    have hw : w ∈ s.ws := by simp [hws]
    have hd := mem_of_joined hi hj hw
    cases w with
    | ended => exact hnot (.inr (.inr (.inr (.inr hw))))
    | failed l => exact reach_failed ho herr h l hw hlog
    | _ => exact hd.elim

/-! ## Samples -/

/-- The first input crashes. -/
def crashing : Nat → Res ObjectInfo := fun f => if f = 0 then .panic else .ok (plain (str% "B"))

/-- The same inputs can make the run crash or hang: the main thread waits for the first worker, and sees the panic only if that is
the one that panicked, or once all workers before it are done. -/
theorem C90_crash_or_hang :
    (∃ as, Reachable (okEnv 2 2 crashing) (final (okEnv 2 2 crashing) as) ∧ (final (okEnv 2 2 crashing) as).crashed = true) ∧
    (∃ as, Hangs (okEnv 2 2 crashing) (final (okEnv 2 2 crashing) as)) ∧
    (∃ as, Hangs (okEnv 1 4 crashing) (final (okEnv 1 4 crashing) as)) := by
  refine ⟨⟨[.send, .send] ++ steps 0 2 ++ steps 1 5 ++ [.join], final_reachable (by decide +kernel), by decide +kernel⟩,
    ⟨[.send, .send] ++ steps 1 2 ++ steps 0 5, hangs_of (by decide +kernel) (by decide +kernel) (by decide +kernel) (by decide +kernel)⟩,
    ⟨[.send] ++ steps 0 2 ++ [.send, .send], hangs_of (by decide +kernel) (by decide +kernel) (by decide +kernel) (by decide +kernel)⟩⟩

example : ¬ (final (okEnv 2 2 crashing) ([.send, .send] ++ steps 0 2 ++ steps 1 5 ++ [.join])).Returned (okEnv 2 2 crashing) :=
  (C90_no_return _ (okEnv_ok _ _ _) (by decide) 0 (by decide) rfl (by
    intro g _ m h; simp only [okEnv, crashing] at h; split at h <;> cases h) _ (final_reachable (by decide +kernel))).1

end Threads
end DumpSyms
