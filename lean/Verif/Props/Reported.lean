import Verif.Model.Log
import Verif.Props.ThreadsSamples
/-!
# C95: what a run over several files says about failures
-/
namespace DumpSyms
namespace Threads

/-- A run that did everything: every input was read, and every debug id among the inputs was handed to the writer exactly once, which
succeeded. -/
structure State.Complete (env : Env) (s : State) : Prop where
  read : ∀ f, f < env.files → ∃ o, env.parse f = .ok o
  once : ∀ f k, f < env.files → HasId env f k → (s.log.map fun d => d.info.debugId).count k = 1
  written : ∀ d ∈ s.log, env.store d.info = .ok ()

/-- An input that could not be read, or a module that could not be written. -/
def State.WentWrong (env : Env) (s : State) : Prop :=
  (∃ f m, f < env.files ∧ env.parse f = .err m) ∨ ∃ d m, d ∈ s.log ∧ env.store d.info = .err m

theorem bad_mid {a b : List W} {w w' : W} (hw : w.bad = 0) (h : ∃ x ∈ a ++ w :: b, 0 < W.bad x) : ∃ x ∈ a ++ w' :: b, 0 < W.bad x := by
  obtain ⟨x, hx, hb⟩ := h
  rcases List.mem_append.mp hx with hx | hx
  · exact ⟨x, by simp [hx], hb⟩
  · rcases List.mem_cons.mp hx with rfl | hx
    · omega
    · exact ⟨x, by simp [hx], hb⟩

/-- After a write that did not succeed, some worker has failed or panicked. -/
theorem unwritten_step {env : Env} {s s' : State} (hc : (∃ d ∈ s.log, env.store d.info ≠ .ok ()) → ∃ w ∈ s.ws, 0 < W.bad w)
    (h : Step env s s') : (∃ d ∈ s'.log, env.store d.info ≠ .ok ()) → ∃ w ∈ s'.ws, 0 < W.bad w := by
  cases h with
  | send | join | crash => exact hc
  | storeOk a b d hw hs | dumpOk a b d hw hs =>
    rintro ⟨e, he, hne⟩
    rcases List.mem_cons.mp he with rfl | he
    · exact absurd hs hne
    · have := hc ⟨e, he, hne⟩
      rw [hw] at this
      exact bad_mid rfl this
  | storeErr a b d m hw | dumpErr a b d m hw => exact fun _ => ⟨.failed [], by simp, by simp [W.bad]⟩
  | storePanic a b d hw | dumpPanic a b d hw => exact fun _ => ⟨.panicked [] [], by simp, by simp [W.bad]⟩
  | _ =>
    intro h
    have := hc h
    rw [‹s.ws = _ ++ _ :: _›] at this
    exact bad_mid rfl this

theorem reach_unwritten {env : Env} {s : State} (h : Reachable env s) (hl : ∃ d ∈ s.log, env.store d.info ≠ .ok ()) :
    ∃ w ∈ s.ws, 0 < W.bad w := by
  induction h with
  | init => obtain ⟨d, hd, _⟩ := hl; cases hd
  | step a hr ha ih => exact unwritten_step ih (act_step ha).2 hl

/-- A worker that returned an error could not read its input or not write its module. -/
theorem wrong_step {env : Env} {s s' : State} (hi : Inv env s) (hc : (∃ w ∈ s.ws, Log.failed w = true) → s.WentWrong env) (h : Step env s s') :
    (∃ w ∈ s'.ws, Log.failed w = true) → s'.WentWrong env := by
  have keep : ∀ {a b : List W} {w w' : W}, s.ws = a ++ w :: b → Log.failed w' = false → (∃ x ∈ a ++ w' :: b, Log.failed x = true) →
      s.WentWrong env := by
    intro a b w w' hw hf ⟨x, hx, hb⟩
    refine hc ⟨x, ?_, hb⟩
    rw [hw]
    rcases List.mem_append.mp hx with hx | hx
    · simp [hx]
    · rcases List.mem_cons.mp hx with rfl | hx
      · rw [hf] at hb; cases hb
      · simp [hx]
  have more : ∀ {d : Item}, s.WentWrong env → (∃ f m, f < env.files ∧ env.parse f = .err m) ∨ ∃ e m, e ∈ d :: s.log ∧ env.store e.info = .err m := by
    intro d h
    rcases h with h | ⟨e, m, he, h⟩
    · exact .inl h
    · exact .inr ⟨e, m, by simp [he], h⟩
  cases h with
  | send | join | crash => exact hc
  | parseErr a b f m hw hpe =>
    exact fun _ => .inl ⟨f, m, (mem_holds hi (w := .parsing f) (by simp [hw]) (by simp [W.holds])).1, hpe⟩
  | abortEnd a b l l' hw => exact (hi.sane (.aborting l l' 0) (by simp [hw])).elim
  | storeErr a b d m hw hs | dumpErr a b d m hw hs => exact fun _ => .inr ⟨d, m, by simp, hs⟩
  | storeOk a b d hw hs | dumpOk a b d hw hs | storePanic a b d hw hs | dumpPanic a b d hw hs =>
    exact fun h => more (keep hw rfl h)
  | _ => exact fun h => keep ‹s.ws = _ ++ _ :: _› rfl h

theorem reach_wrong {env : Env} (ho : env.Ok) {s : State} (h : Reachable env s) (hw : ∃ w ∈ s.ws, Log.failed w = true) : s.WentWrong env := by
  induction h with
  | init =>
    obtain ⟨w, hw, hf⟩ := hw
    rw [(List.mem_replicate.mp hw).2] at hf
    cases hf
  | step a hr ha ih => exact wrong_step (reach_inv ho hr) ih (act_step ha).2 hw

/-- In a run that returned, the number of errors logged is that of the workers that returned an error. -/
theorem errors_returned {env : Env} (ho : env.Ok) {s : State} (h : Reachable env s) (hr : s.Returned env) :
    Log.errors s = (s.ws.filter Log.failed).length := by
  unfold Log.errors
  rw [List.take_of_length_le]
  rw [hr.2.2, (reach_inv ho h).len]
  exact Nat.le_refl _

theorem no_errors_ended {env : Env} (ho : env.Ok) {s : State} (h : Reachable env s) (hr : s.Returned env) (he : Log.errors s = 0) :
    ∀ w ∈ s.ws, w = .ended := by
  intro w hw
  have hd := mem_of_joined (reach_inv ho h) hr.2.2 hw
  rw [errors_returned ho h hr, List.length_eq_zero_iff, List.filter_eq_nil_iff] at he
  have hn := he w hw
  cases w with
  | ended => rfl
  | failed l => exact absurd rfl hn
  | _ => exact hd.elim

/-- **C95.** A run over several files that has returned logged no error exactly when it did everything: it read every input and wrote every
module. -/
theorem C95_reported (env : Env) (ho : env.Ok) (hf : env.files ≠ 1) (s : State) (h : Reachable env s) (hr : s.Returned env) :
    Log.errors s = 0 ↔ s.Complete env := by
  constructor
  · intro he
    have hall := no_errors_ended ho h hr he
    have hex := ended_workers ho hf h hr.2.1 hall
    refine ⟨fun f hlt => ?_, fun f k hlt hk => ended_complete ho h hall (hex (by omega)) hlt hk, fun d hd => ?_⟩
    · obtain ⟨d, _, _, _, o, h1, _⟩ := C48_all_merged_first env ho s h (.inr (.inr (.inr (.inr (hex (by omega)))))) f hlt
      exact ⟨o, h1⟩
    · refine Decidable.byContradiction fun hne => ?_
      obtain ⟨w, hw, hb⟩ := reach_unwritten h ⟨d, hd, hne⟩
      rw [hall w hw] at hb
      cases hb
  · intro hc
    refine Decidable.byContradiction fun hne => ?_
    have hpos : 0 < (s.ws.filter Log.failed).length := by rw [← errors_returned ho h hr]; omega
    obtain ⟨w, hw⟩ := List.exists_mem_of_length_pos hpos
    rw [List.mem_filter] at hw
    rcases reach_wrong ho h ⟨w, hw⟩ with ⟨f, m, hlt, hp⟩ | ⟨d, m, hd, hp⟩
    · obtain ⟨o, h1⟩ := hc.read f hlt
      rw [hp] at h1; cases h1
    · rw [hc.written d hd] at hp; cases hp

/-- **C95.** What is logged is printed unless the value of `--verbose` is `off`. -/
theorem C95_printed (verbose : Str) (s : State) :
    (verbose ≠ str% "off" → Log.printed verbose s = Log.errors s) ∧ Log.printed (str% "off") s = 0 := by
  refine ⟨fun h => ?_, rfl⟩
  have : Log.shows (Log.verbosity verbose) .error = true := by
    unfold Log.verbosity
    rw [if_neg h]
    repeat' split
    all_goals rfl
  unfold Log.printed
  rw [if_pos this]

/-- The values of `--verbose` that show something, in increasing order. -/
def levels : List (Str × Log.Level) :=
  [(str% "error", .error), (str% "warn", .warn), (str% "info", .info), (str% "debug", .debug), (str% "trace", .trace)]

/-- **C95.** With each value of `--verbose` the lines of its level and of those before it are printed; any other value counts as `error`, except
`off`, with which nothing is printed. -/
theorem C95_levels : (∀ i j (hi : i < levels.length) (hj : j < levels.length),
      (Log.shows (Log.verbosity (levels[i]).1) (levels[j]).2 = true ↔ j ≤ i)) ∧
    (∀ v, v ≠ str% "off" → v ∉ levels.map (·.1) → Log.verbosity v = Log.verbosity (str% "error")) ∧
    ∀ e ∈ levels, Log.shows (Log.verbosity (str% "off")) e.2 = false := by
  refine ⟨?_, fun v h1 h2 => ?_, by decide⟩
  · have : ∀ i j : Fin 5, (Log.shows (Log.verbosity (levels[i]).1) (levels[j]).2 = true ↔ j.val ≤ i.val) := by decide
    exact fun i j hi hj => this ⟨i, hi⟩ ⟨j, hj⟩
  · simp only [levels, List.map_cons, List.map_nil, List.mem_cons, not_or] at h2
    obtain ⟨_, a, b, c, d, _⟩ := h2
    unfold Log.verbosity
    rw [if_neg h1, if_neg a, if_neg b, if_neg c, if_neg d]
    rfl

/-- **C95.** At any moment at most one error has been logged for each worker. -/
theorem C95_bound (env : Env) (ho : env.Ok) (s : State) (h : Reachable env s) : Log.errors s ≤ env.n := by
  unfold Log.errors
  refine Nat.le_trans (List.length_filter_le ..) ?_
  rw [List.length_take, ← (reach_inv ho h).len]
  omega

/-- Each side of C95 is met: a run that does everything and says nothing, and runs that say that an input could not be read, or a module not
written. -/
example : (final (okEnv 2 3 two) goodRun).Returned (okEnv 2 3 two) ∧ Log.errors (final (okEnv 2 3 two) goodRun) = 0 := by decide +kernel
def badRun : List Action := [.send, .send] ++ steps 0 2 ++ [.join]
def storeRun : List Action := [.send, .send] ++ steps 0 13 ++ steps 1 1 ++ steps 0 4 ++ steps 1 2 ++ [.join, .join]
example : (final storeEnv storeRun).Returned storeEnv ∧ Log.printed (str% "error") (final storeEnv storeRun) = 1 := by decide +kernel

/-- **A run that does nothing and says nothing.** With `--verbose off`, a run over two inputs of which the first cannot be read returns `Ok`
(status 0), having written and printed nothing; with the default level it prints one line. -/
theorem C95_silent_witness : ∃ as, Reachable (okEnv 1 2 bad) (final (okEnv 1 2 bad) as) ∧ (final (okEnv 1 2 bad) as).Returned (okEnv 1 2 bad) ∧
    (final (okEnv 1 2 bad) as).log = [] ∧ Log.printed (str% "off") (final (okEnv 1 2 bad) as) = 0 ∧
    Log.printed (str% "error") (final (okEnv 1 2 bad) as) = 1 :=
  ⟨badRun, final_reachable (by decide +kernel), by decide +kernel, by decide +kernel, by decide +kernel, by decide +kernel⟩

/-- **One line for several failures.** One worker and two inputs neither of which can be read: one line is logged, the second input is never
looked at. -/
theorem C95_one_line_witness : ∃ as s, s = final (okEnv 1 2 fun _ => .err []) as ∧ Reachable (okEnv 1 2 fun _ => .err []) s ∧
    s.Returned (okEnv 1 2 fun _ => .err []) ∧ Log.errors s = 1 ∧ s.queue = [.get 1] :=
  ⟨badRun, _, rfl, final_reachable (by decide +kernel), by decide +kernel, by decide +kernel, by decide +kernel⟩

end Threads
end DumpSyms
