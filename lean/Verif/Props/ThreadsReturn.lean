import Verif.Props.ThreadsHang
/-!
# C51: when a run in which nothing fails can return
-/
namespace DumpSyms
namespace Threads

/-- The states that can follow a given one. -/
inductive Follows (env : Env) (s : State) : State → Prop where
  | here : Follows env s s
  | step {s' s'' : State} (a : Action) : Follows env s s' → act env a s' = some s'' → Follows env s s''

theorem Follows.reach {env : Env} {s s' : State} (h : Follows env s s') (hr : Reachable env s) : Reachable env s' := by
  induction h with
  | here => exact hr
  | step a _ ha ih => exact .step a ih ha

theorem Follows.trans {env : Env} {s s' s'' : State} (h : Follows env s s') (h' : Follows env s' s'') : Follows env s s'' := by
  induction h' with
  | here => exact h
  | step a _ ha ih => exact .step a ih ha

/-- Every run can be carried on until nothing moves any more. -/
theorem stops {env : Env} (ho : env.Ok) {s : State} (hr : Reachable env s) : ∃ s', Follows env s s' ∧ Stuck env s' := by
  generalize hm : measure env s = m
  induction m using Nat.strongRecOn generalizing s with
  | ind m ih =>
    by_cases hs : Stuck env s
    · exact ⟨s, .here, hs⟩
    · obtain ⟨a, ha⟩ := Classical.not_forall.mp hs
      cases hact : act env a s with
      | none => exact absurd hact ha
      | some s1 =>
        obtain ⟨hc, hst⟩ := act_step hact
        have hlt := measure_step ho (reach_inv ho hr).len hc hst
        obtain ⟨s', h1, h2⟩ := ih _ (hm ▸ hlt) (.step a hr hact) rfl
        exact ⟨s', (Follows.step a .here hact).trans h1, h2⟩

theorem act_coordinator {env : Env} {s s' : State} {a : Action} (h : act env a s = some s') (hc : s.coordinator ≠ none) :
    s'.coordinator ≠ none := by
  obtain ⟨_, hst⟩ := act_step h
  cases hst with
  | checkLast a b hw h1 => simp
  | _ => exact hc

theorem Follows.coordinator {env : Env} {s s' : State} (h : Follows env s s') (hc : s.coordinator ≠ none) : s'.coordinator ≠ none := by
  induction h with
  | here => exact hc
  | step a _ ha ih => exact act_coordinator ha ih

theorem started_coordinator {env : Env} (ho : env.Ok) {s : State} (hr : Reachable env s) (hs : s.Started) : s.coordinator ≠ none := by
  intro h
  have h1 := (reach_inv ho hr).ph1 h
  rcases hs with hs | ⟨d, hd⟩ | ⟨d, w, hw, hd⟩ | hd | hd
  · exact hs h1.log
  · obtain ⟨f, e⟩ := h1.gets _ hd; cases e
  · have := h1.early w hw
    cases w <;> first | exact this | exact hd
  · obtain ⟨f, e⟩ := h1.gets _ hd; cases e
  · exact h1.early _ hd

/-- What a coordinated run, in which nothing fails, comes to. -/
theorem coordinated_returns {env : Env} (ho : env.Ok) (hsm : env.Smooth) (hn : 2 ≤ env.n) {s s' : State} (hr : Reachable env s)
    (hc : s.coordinator ≠ none) (hf : Follows env s s') (hs : Stuck env s') : s'.Returned env := by
  have hr' := hf.reach hr
  have hi := reach_inv ho hr'
  have h2 := hi.ph2 (hf.coordinator hc)
  refine Classical.byContradiction fun h => ?_
  rcases stuck_cause hi (by omega) hs (reach_not_crashed ho hsm hr') (reach_clean ho hsm hr').1 h with h | h
  · rw [h2.counter] at h; cases h
  · omega

/-- **C51, once a run has started to write.** When nothing fails and there are two or more workers, a run that has started to write (or to hand out modules)
can only end by returning, however it goes on. -/
theorem C51_once_started (env : Env) (ho : env.Ok) (hsm : env.Smooth) (hn : 2 ≤ env.n) (s s' : State) (hr : Reachable env s) (hs : s.Started)
    (hf : Follows env s s') (hstop : Stuck env s') : s'.Returned env :=
  coordinated_returns ho hsm hn hr (started_coordinator ho hr hs) hf hstop

/-- When nothing fails and there is a worker, one of the workers can come to see that the inputs are all there. -/
theorem coordinates {env : Env} (ho : env.Ok) (hsm : env.Smooth) (hn : 0 < env.n) (hf : 0 < env.files) :
    ∃ s, Reachable env s ∧ s.coordinator ≠ none := by
  obtain ⟨s, v⟩ := View.most ho hsm hn (env.files - 1) (by omega)
  rw [List.drop_eq_getElem_cons (by simp; omega), List.drop_eq_nil_of_le (by simp; omega),
    show env.files - (env.files - 1) = 1 by omega] at v
  obtain ⟨s1, v1⟩ := v.send (by simp)
  obtain ⟨s2, v2⟩ := v1.input ho hsm (idle_at hn)
  obtain ⟨s3, v3⟩ := v2.last (i := 0) (List.getElem?_set_self (by simpa using hn))
  refine ⟨s3, v3.reach, fun h => ?_⟩
  have := ((reach_inv ho v3.reach).ph1 h).early .coord (by rw [v3.ws]; exact List.mem_of_getElem? (List.getElem?_set_self (i := 0) (by simpa using hn)))
  exact this

/-- **C51, a run can return.** When nothing fails, a run with two or more workers has a schedule in which it returns. -/
theorem C51_can_return (env : Env) (ho : env.Ok) (hsm : env.Smooth) (hn : 2 ≤ env.n) (hf : 0 < env.files) :
    ∃ s, Reachable env s ∧ s.Returned env := by
  obtain ⟨s, h1, h2⟩ := coordinates ho hsm (by omega) hf
  obtain ⟨s', h3, h4⟩ := stops ho h1
  exact ⟨s', h3.reach h1, coordinated_returns ho hsm hn h1 h2 h3 h4⟩

/-! ## One worker -/

/-- Where the only worker is when there are modules of two debug ids: about to hand them out, or doing that. -/
def HandsOut (s : State) : Prop :=
  s.log = [] ∧ ((s.ws = [.coord] ∧ s.queue.flatMap Msg.items = []) ∨ ∃ ds, s.ws = [.sending ds 1])

/-- The only worker of a run over inputs with two debug ids never gets past handing out the modules. -/
theorem alone_before {env : Env} (ho : env.Ok) (hsm : env.Smooth) (hn : env.n = 1) {f g : Nat} {k l : Str} (hf : f < env.files)
    (hg : g < env.files) (hk : HasId env f k) (hl : HasId env g l) (hne : k ≠ l) {s : State} (hr : Reachable env s)
    (hc : s.coordinator ≠ none) : HandsOut s := by
  induction hr with
  | init => exact absurd rfl hc
  | @step s s' a hr ha ih =>
    have hi := reach_inv ho hr
    obtain ⟨hbad, hpo⟩ := reach_clean ho hsm hr
    obtain ⟨_, hst⟩ := act_step ha
    have hlen := hi.len
    rw [hn] at hlen
    by_cases hco : s.coordinator = none
    · have h1 := hi.ph1 hco
      cases hst with
      | checkLast a b hw hcount =>
        rw [hw, List.length_append, List.length_cons] at hlen
        obtain rfl : a = [] := List.length_eq_zero_iff.mp (by omega)
        obtain rfl : b = [] := List.length_eq_zero_iff.mp (by simp only [List.length_nil] at hlen; omega)
        refine ⟨h1.log, .inl ⟨rfl, ?_⟩⟩
        rw [List.flatMap_eq_nil_iff]
        intro m hm
        obtain ⟨f, rfl⟩ := h1.gets m hm
        rfl
      | _ => exact absurd hco hc
    · have h2 := hi.ph2 hco
      obtain ⟨hlog, hcases⟩ := ih hco
      -- two modules are there
      have two : ∀ q : List Item, s.out = q → 2 ≤ q.length := by
        intro q hq
        have hlost : ∀ v ∈ s.ws, v.lost = [] := by
          intro v hv
          refine Classical.byContradiction fun h => ?_
          have := (hi.lost ⟨v, hv, h⟩).1
          rw [hpo] at this; cases this
        obtain ⟨d1, h1, h2⟩ := out_of_id hi hco hlost hf hk
        obtain ⟨d2, h3, h4⟩ := out_of_id hi hco hlost hg hl
        rw [hq] at h1 h3
        match q with
        | [] => cases h1
        | [d] =>
          simp only [List.mem_singleton] at h1 h3
          exact (hne (by rw [← h2, ← h4, h1, h3])).elim
        | _ :: _ :: _ => simp
      have split1 : ∀ {a b : List W} {w v : W}, [v] = a ++ w :: b → a = [] ∧ v = w ∧ b = [] := by
        intro a b w v h
        cases a with
        | nil => simp only [List.nil_append, List.cons.injEq] at h; exact ⟨rfl, h.1, h.2.symm⟩
        | cons x a => simp at h
      rcases hcases with ⟨hws, hq⟩ | ⟨ds, hws⟩
      · cases hst with
        | send f fs h => rw [h2.sent] at h; cases h
        | join w _ hw hd =>
          rw [hws] at hw
          have := List.mem_of_getElem? hw
          simp only [List.mem_singleton] at this
          subst this
          rcases hd with h | ⟨l, h⟩ <;> cases h
        | crash a b _ hw =>
          rw [hws] at hw
          have := List.mem_of_getElem? hw
          simp at this
        | coordPoisoned a b hw h3 h4 => rw [hpo] at h4; cases h4
        | coordOne a b k d hw h3 h4 h5 =>
          have hp := (ho s.table).length_eq
          rw [h5] at hp
          have := two (s.table.map (·.2)) (by simp [State.out, hq, hws, W.items, hlog])
          rw [List.length_map] at this
          simp only [List.length_cons, List.length_nil] at hp
          omega
        | coordMany a b hw h3 h4 h5 =>
          obtain ⟨rfl, _, rfl⟩ := split1 (hws.symm.trans hw)
          exact ⟨hlog, .inr ⟨_, by rw [hn]; rfl⟩⟩
        | _ =>
          have hw := ‹s.ws = _ ++ _ :: _›
          have := (split1 (hws.symm.trans hw)).2.1
          cases this
      · cases hst with
        | send f fs h => rw [h2.sent] at h; cases h
        | join w _ hw hd =>
          rw [hws] at hw
          have := List.mem_of_getElem? hw
          simp only [List.mem_singleton] at this
          subst this
          rcases hd with h | ⟨l, h⟩ <;> cases h
        | crash a b _ hw =>
          rw [hws] at hw
          have := List.mem_of_getElem? hw
          simp at this
        | sendDump a b d ds' k hw hroom =>
          obtain ⟨rfl, e, rfl⟩ := split1 (hws.symm.trans hw)
          cases e
          exact ⟨hlog, .inr ⟨_, rfl⟩⟩
        | sendStop a b k hw hroom =>
          obtain ⟨rfl, e, rfl⟩ := split1 (hws.symm.trans hw)
          cases e
          have ht : s.table = [] := h2.taken (by rw [hws]; decide)
          have := two (s.queue.flatMap Msg.items) (by simp [State.out, ht, hws, W.items, hlog])
          have hle : (s.queue.flatMap Msg.items).length ≤ s.queue.length := by
            generalize s.queue = q
            induction q with
            | nil => simp
            | cons m q ih =>
              rw [List.flatMap_cons, List.length_append, List.length_cons]
              have : m.items.length ≤ 1 := by cases m <;> simp [Msg.items]
              omega
          omega
        | _ =>
          have hw := ‹s.ws = _ ++ _ :: _›
          have := (split1 (hws.symm.trans hw)).2.1
          cases this

/-- **C51, exactly when a run can return**: a run over two or more inputs in which nothing fails has a schedule in which it returns if and only if there
are two or more workers, or there is one worker and all inputs have the same debug id. -/
theorem C51_can_return_iff (env : Env) (ho : env.Ok) (hsm : env.Smooth) (hf : 2 ≤ env.files) :
    (∃ s, Reachable env s ∧ s.Returned env) ↔
      2 ≤ env.n ∨ (env.n = 1 ∧ ∀ f g k l, f < env.files → g < env.files → HasId env f k → HasId env g l → k = l) := by
  constructor
  · rintro ⟨s, hr, hret⟩
    have hi := reach_inv ho hr
    rcases Nat.lt_or_ge 1 env.n with h | h
    · exact .inl h
    · rcases Nat.lt_or_ge 0 env.n with h0 | h0
      · have hn : env.n = 1 := by omega
        refine .inr ⟨hn, fun f g k l h1 h2 h3 h4 => Classical.byContradiction fun hne => ?_⟩
        obtain ⟨w, hw, hd⟩ := hi.joined 0 (by rw [hret.2.2]; omega)
        have hbad := (reach_clean ho hsm hr).1 w (List.mem_of_getElem? hw)
        have hend : w = .ended := by
          cases w <;> first | rfl | exact (hd : False).elim | (simp [W.bad] at hbad)
        subst hend
        have hco := started_coordinator ho hr (.inr (.inr (.inr (.inr (List.mem_of_getElem? hw)))))
        obtain ⟨_, ⟨hws, _⟩ | ⟨ds, hws⟩⟩ := alone_before ho hsm hn h1 h2 h3 h4 hne hr hco
        · rw [hws] at hw; cases hw
        · rw [hws] at hw; cases hw
      · exfalso
        have hn : env.n = 0 := by omega
        have hq := hi.cap
        have hws : s.ws = [] := List.length_eq_zero_iff.mp (by rw [hi.len, hn])
        have hsum : s.queue.length + s.toSend.length = env.files := by
          clear hret hq hws hi
          induction hr with
          | init => simp [init]
          | @step s s' a hr ha ih =>
            have hws : s.ws = [] := List.length_eq_zero_iff.mp (by rw [(reach_inv ho hr).len, hn])
            obtain ⟨_, hst⟩ := act_step ha
            cases hst with
            | send f fs h =>
              rw [h, List.length_cons] at ih
              simp only [List.length_append, List.length_cons, List.length_nil]
              omega
            | join w _ hw hd => exact ih
            | crash a b _ hw => exact ih
            | _ =>
              have hw := ‹s.ws = _ ++ _ :: _›
              rw [hws] at hw
              simp at hw
        rw [hret.2.1, List.length_nil] at hsum
        omega
  · rintro (h | ⟨hn, hall⟩)
    · exact C51_can_return env ho hsm h (by omega)
    · obtain ⟨s', h3, h4⟩ := stops ho (.init (env := env))
      exact ⟨s', h3.reach .init, ((C51_returns_iff env ho hsm hf).mpr ⟨hn, hall⟩) s' (h3.reach .init) h4⟩

/-! ## Examples -/

/-- Two workers, five inputs, two debug ids: the run can return. -/
example : ∃ s, Reachable (okEnv 2 5 two) s ∧ s.Returned (okEnv 2 5 two) :=
  (C51_can_return_iff _ (two_smooth 2 5).1 (two_smooth 2 5).2 (by decide)).mpr (.inl (by decide))

/-- One worker: it cannot. -/
example : ¬ ∃ s, Reachable (okEnv 1 5 two) s ∧ s.Returned (okEnv 1 5 two) := by
  rw [C51_can_return_iff _ (two_smooth 1 5).1 (two_smooth 1 5).2 (by decide)]
  rintro (h | ⟨_, h⟩)
  · exact absurd h (by decide)
  · exact absurd (h 0 1 (str% "A") (str% "B") (by decide) (by decide) ⟨_, rfl, rfl⟩ ⟨_, rfl, rfl⟩) (by decide)

/-- The run that is carried on: a module has been handed out and nothing is written yet, and the run returns however it goes on. -/
example : ∃ s, Reachable (okEnv 2 3 two) s ∧ s.log = [] ∧ s.Started ∧
    ∀ s', Follows (okEnv 2 3 two) s s' → Stuck (okEnv 2 3 two) s' → s'.Returned (okEnv 2 3 two) := by
  have hs : (final (okEnv 2 3 two) (goodRun.take 20)).Started := .inr (.inl ⟨_, List.mem_of_getElem? (i := 0) rfl⟩)
  have hr : Reachable (okEnv 2 3 two) (final (okEnv 2 3 two) (goodRun.take 20)) := final_reachable (by decide)
  exact ⟨_, hr, by decide, hs, fun s' hf hst => C51_once_started _ (two_smooth 2 3).1 (two_smooth 2 3).2 (by decide) _ s' hr hs hf hst⟩

end Threads
end DumpSyms
