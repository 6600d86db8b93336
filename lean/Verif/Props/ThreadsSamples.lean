import Verif.Props.Threads
/-!
# C48–C53: runs that complete, that hang, and that return without reporting a failure
-/
namespace DumpSyms
namespace Threads

/-- An object with no records. -/
def plain (id : Str) : ObjectInfo :=
  { symbols := [], files := ⟨[], []⟩, inlineOrigins := [], fileName := str% "a", cpu := str% "x86_64", debugId := id, codeId := none, peName := none, stack := [],
    binType := .stripped, platform := .linux }

def okEnv (n files : Nat) (parse : Nat → Res ObjectInfo) : Env where
  n := n
  files := files
  parse := parse
  store := fun _ => .ok ()
  order := id
  hash := fun _ => id

theorem okEnv_ok (n files : Nat) (parse : Nat → Res ObjectInfo) : (okEnv n files parse).Ok := fun _ => .refl _

def same : Nat → Res ObjectInfo := fun _ => .ok (plain (str% "A"))
def two : Nat → Res ObjectInfo := fun f => if f = 1 then .ok (plain (str% "B")) else .ok (plain (str% "A"))
def bad : Nat → Res ObjectInfo := fun f => if f = 0 then .err (str% "x") else .ok (plain (str% "B"))

instance (env : Env) (s : State) : Decidable (s.Returned env) := by unfold State.Returned; infer_instance

/-- What a run ends in. -/
def final (env : Env) (as : List Action) : State := (run env as (init env)).getD (init env)

theorem final_reachable {env : Env} {as : List Action} (h : (run env as (init env)).isSome = true) : Reachable env (final env as) := by
  obtain ⟨s, hs⟩ := Option.isSome_iff_exists.mp h
  have : final env as = s := by simp [final, hs]
  rw [this]; exact reach_run .init hs

/-- Whether nothing can move. -/
def stuckB (env : Env) (s : State) : Bool :=
  (act env .send s).isNone && (act env .join s).isNone && (List.range s.ws.length).all fun i => (act env (.worker i) s).isNone

theorem stuckB_stuck {env : Env} {s : State} (h : stuckB env s = true) : Stuck env s := by
  simp only [stuckB, Bool.and_eq_true, List.all_eq_true, List.mem_range, Option.isNone_iff_eq_none] at h
  exact stuck_of h.1.1 h.1.2 h.2

theorem hangs_of {env : Env} {as : List Action} (h1 : (run env as (init env)).isSome = true) (h2 : stuckB env (final env as) = true)
    (h3 : (final env as).crashed = false) (h4 : ¬ (final env as).Returned env) : Hangs env (final env as) :=
  ⟨final_reachable h1, stuckB_stuck h2, h3, h4⟩

/-- A worker does `k` steps. -/
def steps (i k : Nat) : List Action := List.replicate k (.worker i)

/-! ## A run that completes: three inputs, two debug ids, two workers -/

def goodRun : List Action :=
  List.replicate 3 .send ++ steps 0 18 ++ steps 1 1 ++ steps 0 5 ++ steps 1 2 ++ [.join, .join]

/-- The hypotheses of C48, C49, C50 and C53 are met by a run that returns, having written both modules. -/
example : Reachable (okEnv 2 3 two) (final (okEnv 2 3 two) goodRun) ∧ (final (okEnv 2 3 two) goodRun).Returned (okEnv 2 3 two) ∧
    (final (okEnv 2 3 two) goodRun).log.map (fun d => (d.src, d.info.debugId)) = [([2, 0], str% "A"), ([1], str% "B")] :=
  ⟨final_reachable (by decide +kernel), by decide +kernel, by decide +kernel⟩

theorem plainA : ObjectInfo.merge id (plain (str% "A")) (plain (str% "A")) = .ok (plain (str% "A")) := by decide +kernel
theorem plainB : ObjectInfo.merge id (plain (str% "B")) (plain (str% "B")) = .ok (plain (str% "B")) := by decide +kernel

theorem okEnv_smooth (n files : Nat) : (okEnv n files two).Smooth where
  parses := by intro f _; unfold okEnv two; simp only; split <;> exact ⟨_, rfl⟩
  stores := fun _ _ _ => rfl
  merges := by
    intro f l o p _ _ ho hm hid
    have key : ∀ l p, Made (okEnv n files two) l p → p = plain (str% "A") ∨ p = plain (str% "B") := by
      intro l p h
      induction h with
      | one f o ho => simp only [okEnv, two] at ho; split at ho <;> cases ho <;> simp
      | more f l o p c ho _ hm ih =>
        simp only [okEnv, two] at ho
        simp only [okEnv] at hm
        have hid := (merge_ok hm).1
        split at ho <;> cases ho <;> rcases ih with rfl | rfl
        · exact absurd hid (by decide)
        · rw [plainB] at hm; cases hm; simp
        · rw [plainA] at hm; cases hm; simp
        · exact absurd hid (by decide)
    have ho' : o = plain (str% "A") ∨ o = plain (str% "B") := key [f] o (.one f o ho)
    rcases ho' with rfl | rfl <;> rcases key l p hm with rfl | rfl
    · exact ⟨_, plainA⟩
    · exact absurd hid (by decide)
    · exact absurd hid (by decide)
    · exact ⟨_, plainB⟩

/-- The hypotheses of C50 and C51 can be met. -/
example : (okEnv 2 3 two).Ok ∧ (okEnv 2 3 two).Smooth ∧ Stuck (okEnv 2 3 two) (final (okEnv 2 3 two) goodRun) :=
  ⟨okEnv_ok _ _ _, okEnv_smooth _ _, stuckB_stuck (by decide +kernel)⟩

/-! ## C51: five ways to hang -/

/-- **C51 is false: lost race.** Two workers, two inputs that parse, merge and can be written: both workers see the counter at
two, both take one off, and nobody writes anything. -/
theorem C51_race_witness : ∃ as, Hangs (okEnv 2 2 two) (final (okEnv 2 2 two) as) ∧ (final (okEnv 2 2 two) as).log = [] :=
  ⟨[.send, .send] ++ steps 0 3 ++ steps 1 3 ++ steps 0 1 ++ steps 1 1 ++ steps 0 1 ++ steps 1 1,
    hangs_of (by decide +kernel) (by decide +kernel) (by decide +kernel) (by decide +kernel), by decide +kernel⟩

/-- **C51 is false: input that does not parse.** -/
theorem C51_parse_error_witness : ∃ as, Hangs (okEnv 2 2 bad) (final (okEnv 2 2 bad) as) :=
  ⟨[.send, .send] ++ steps 0 2 ++ steps 1 5 ++ [.join],
    hangs_of (by decide +kernel) (by decide +kernel) (by decide +kernel) (by decide +kernel)⟩

/-- **C51 is false: the only module cannot be written.** -/
theorem C51_store_error_witness : ∃ as,
    Hangs { okEnv 2 2 same with store := fun _ => .err [] } (final { okEnv 2 2 same with store := fun _ => .err [] } as) :=
  ⟨[.send, .send] ++ steps 0 11 ++ [.join],
    hangs_of (by decide +kernel) (by decide +kernel) (by decide +kernel) (by decide +kernel)⟩

/-- **C51 is false: one worker and two debug ids.** The worker fills the queue that it alone empties. -/
theorem C51_one_worker_witness : ∃ as, Hangs (okEnv 1 2 two) (final (okEnv 1 2 two) as) :=
  ⟨[.send, .send] ++ steps 0 12, hangs_of (by decide +kernel) (by decide +kernel) (by decide +kernel) (by decide +kernel)⟩

/-- **C51 is false: no workers** (`-j 0`). -/
theorem C51_no_worker_witness : ∃ as, Hangs (okEnv 0 2 two) (final (okEnv 0 2 two) as) :=
  ⟨[.send], hangs_of (by decide +kernel) (by decide +kernel) (by decide +kernel) (by decide +kernel)⟩

/-! ## C52: failures that are not reported -/

/-- **C52 is false: inputs.** One worker: the first input does not parse, the second is never looked at, the run returns `Ok` and has written
nothing. -/
theorem C52_parse_error_witness : ∃ as, Reachable (okEnv 1 2 bad) (final (okEnv 1 2 bad) as) ∧
    (final (okEnv 1 2 bad) as).Returned (okEnv 1 2 bad) ∧ bad 0 = .err (str% "x") ∧ (final (okEnv 1 2 bad) as).log = [] :=
  ⟨[.send, .send] ++ steps 0 2 ++ [.join], final_reachable (by decide +kernel), by decide +kernel, by decide +kernel, by decide +kernel⟩

/-- One of the modules cannot be written. -/
def storeEnv : Env := { okEnv 2 2 two with store := fun o => if o.debugId = str% "A" then .err [] else .ok () }

/-- **C52 is false: writing.** Two workers and two modules, one of which cannot be written; the run returns `Ok`. -/
theorem C52_store_error_witness : ∃ as, Reachable storeEnv (final storeEnv as) ∧ (final storeEnv as).Returned storeEnv ∧
    ∃ d ∈ (final storeEnv as).log, storeEnv.store d.info = .err [] :=
  ⟨[.send, .send] ++ steps 0 13 ++ steps 1 1 ++ steps 0 4 ++ steps 1 2 ++ [.join, .join],
    final_reachable (by decide +kernel), by decide +kernel, { src := [0], info := plain (str% "A") }, by decide +kernel, by decide +kernel⟩

/-- A run in which a worker panics makes the main thread panic (C52_panic_partial is not vacuous about `Returned`: see the runs above). -/
example : (final (okEnv 1 2 fun _ => .panic) ([.send, .send] ++ steps 0 2 ++ [.join])).crashed = true := by decide +kernel

end Threads
end DumpSyms
