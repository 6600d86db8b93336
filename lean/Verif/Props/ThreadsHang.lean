import Verif.Props.ThreadsSamples
/-!
# C51: exactly when a run in which nothing fails can hang
-/
namespace DumpSyms
namespace Threads

/-- What is known of a state that is being worked towards: nothing is locked, no worker has been joined. -/
structure View (env : Env) (s : State) (q : List Msg) (ts : List Nat) (ws : List W) (c : Nat) : Prop where
  reach : Reachable env s
  queue : s.queue = q
  toSend : s.toSend = ts
  ws : s.ws = ws
  counter : s.counter = c
  locked : s.locked = false
  crashed : s.crashed = false
  joined : s.joined = 0
  log : s.log = []

section
variable {env : Env} {s : State} {q : List Msg} {ts : List Nat} {ws : List W} {c i : Nat}

theorem go_worker {w w' : W} {s1 : State} (hc : s.crashed = false) (hw : s.ws[i]? = some w) (h : work env s i w = some (w', s1)) :
    act env (.worker i) s = some { s1 with ws := s.ws.set i w' } := by
  unfold act
  rw [if_neg (by simp [hc])]
  simp only [hw, h, Option.map_some]

theorem View.send {f : Nat} (v : View env s q (f :: ts) ws c) (hq : q.length < env.n + 1) : ∃ s', View env s' (q ++ [.get f]) ts ws c := by
  have hroom : s.hasRoom env = true := by rw [hasRoom_iff, v.queue]; exact hq
  have ha : act env .send s = some { s with queue := s.queue ++ [.get f], toSend := ts } := by
    unfold act
    rw [if_neg (by simp [v.crashed])]
    simp only [v.toSend, hroom, if_true]
  exact ⟨_, .step _ v.reach ha, by rw [← v.queue], rfl, v.ws, v.counter, v.locked, v.crashed, v.joined, v.log⟩

theorem View.recv {f : Nat} (v : View env s (.get f :: q) ts ws c) (hw : ws[i]? = some .idle) : ∃ s', View env s' q ts (ws.set i (.parsing f)) c := by
  have ha := go_worker (env := env) (w' := .parsing f) (s1 := { s with queue := q }) v.crashed (by rw [v.ws]; exact hw) (by simp only [work, v.queue])
  exact ⟨_, .step _ v.reach ha, rfl, v.toSend, by rw [v.ws], v.counter, v.locked, v.crashed, v.joined, v.log⟩

theorem View.parse (ho : env.Ok) (hsm : env.Smooth) {f : Nat} (v : View env s q ts ws c) (hw : ws[i]? = some (.parsing f)) :
    ∃ s' d, View env s' q ts (ws.set i (.merging d)) c := by
  have hw' : s.ws[i]? = some (.parsing f) := by rw [v.ws]; exact hw
  have hf := (mem_holds (reach_inv ho v.reach) (List.mem_of_getElem? hw') (f := f) (by simp [W.holds])).1
  obtain ⟨o, hp⟩ := hsm.parses f hf
  have ha := go_worker (env := env) (w' := .merging { src := [f], info := o }) (s1 := s) v.crashed hw' (by simp only [work, hp])
  exact ⟨_, _, .step _ v.reach ha, v.queue, v.toSend, by rw [v.ws], v.counter, v.locked, v.crashed, v.joined, v.log⟩

theorem View.merge (ho : env.Ok) (hsm : env.Smooth) {d : Item} (v : View env s q ts ws c) (hw : ws[i]? = some (.merging d)) :
    ∃ s', View env s' q ts (ws.set i .check) c := by
  have hw' : s.ws[i]? = some (.merging d) := by rw [v.ws]; exact hw
  have hinv := reach_inv ho v.reach
  have hp := (reach_clean ho hsm v.reach).2
  cases hl : s.table.lookup d.info.debugId with
  | none =>
    have ha := go_worker (env := env) (w' := .check)
      (s1 := { s with table := tableInsert s.table d.info.debugId d, merged := d.src ++ s.merged }) v.crashed hw'
      (by simp [work, v.locked, hp, hl])
    exact ⟨_, .step _ v.reach ha, v.queue, v.toSend, by rw [v.ws], v.counter, v.locked, v.crashed, v.joined, v.log⟩
  | some prev =>
    cases hm : ObjectInfo.merge (env.hash (d.src ++ prev.src)) d.info prev.info with
    | ok x =>
      have ha := go_worker (env := env) (w' := .check) (s1 := { s with
            table := tableInsert (tableRemove s.table d.info.debugId) x.debugId { src := d.src ++ prev.src, info := x }
            merged := d.src ++ s.merged }) v.crashed hw' (by simp [work, v.locked, hp, hl, hm])
      exact ⟨_, .step _ v.reach ha, v.queue, v.toSend, by rw [v.ws], v.counter, v.locked, v.crashed, v.joined, v.log⟩
    | err m => exact (no_mergeErr hinv.key hl hm).elim
    | panic =>
      have ha := go_worker (env := env) (w' := .panicked d.src prev.src) (s1 := { s with
            table := tableRemove s.table d.info.debugId
            poisoned := true }) v.crashed hw' (by simp [work, v.locked, hp, hl, hm])
      have := (reach_clean ho hsm (.step _ v.reach ha)).2
      cases this

theorem View.check (v : View env s q ts ws c) (hw : ws[i]? = some .check) (hc : c ≠ 1) : ∃ s', View env s' q ts (ws.set i .decr) c := by
  have ha := go_worker (env := env) (w' := .decr) (s1 := s) v.crashed (by rw [v.ws]; exact hw) (by simp [work, v.counter, hc])
  exact ⟨_, .step _ v.reach ha, v.queue, v.toSend, by rw [v.ws], v.counter, v.locked, v.crashed, v.joined, v.log⟩

theorem View.last (v : View env s q ts ws 1) (hw : ws[i]? = some .check) : ∃ s', View env s' q ts (ws.set i .coord) 1 := by
  have ha := go_worker (env := env) (w' := .coord) (s1 := { s with coordinator := some i }) v.crashed (by rw [v.ws]; exact hw)
    (by simp [work, v.counter])
  exact ⟨_, .step _ v.reach ha, v.queue, v.toSend, by rw [v.ws], v.counter, v.locked, v.crashed, v.joined, v.log⟩

theorem View.decr (v : View env s q ts ws c) (hw : ws[i]? = some .decr) : ∃ s', View env s' q ts (ws.set i .idle) (c - 1) := by
  have ha := go_worker (env := env) (w' := .idle) (s1 := { s with counter := s.counter - 1 }) v.crashed (by rw [v.ws]; exact hw) (by simp [work])
  exact ⟨_, .step _ v.reach ha, v.queue, v.toSend, by rw [v.ws], by rw [← v.counter], v.locked, v.crashed, v.joined, v.log⟩

/-- A worker takes an input as far as the counter. -/
theorem View.input (ho : env.Ok) (hsm : env.Smooth) {f : Nat} (v : View env s (.get f :: q) ts ws c) (hw : ws[i]? = some .idle) :
    ∃ s', View env s' q ts (ws.set i .check) c := by
  have hi := (List.getElem?_eq_some_iff.mp hw).1
  have hset : ∀ w : W, (ws.set i w)[i]? = some w := fun w => List.getElem?_set_self hi
  obtain ⟨s1, v1⟩ := v.recv hw
  obtain ⟨s2, d, v2⟩ := v1.parse ho hsm (hset _)
  rw [List.set_set] at v2
  obtain ⟨s3, v3⟩ := v2.merge ho hsm (hset _)
  rw [List.set_set] at v3
  exact ⟨s3, v3⟩

end

theorem set_back {n i : Nat} (hi : i < n) (w : W) : ((List.replicate n W.idle).set i w).set i .idle = List.replicate n .idle := by
  rw [List.set_set]
  apply List.ext_getElem?
  intro j
  rw [List.getElem?_set]
  split
  · rename_i h; subst h; simp [hi]
  · rfl

theorem idle_at {n i : Nat} (hi : i < n) : (List.replicate n W.idle)[i]? = some .idle := by simp [hi]

/-- The first worker can deal with all inputs but the last. -/
theorem View.most {env : Env} (ho : env.Ok) (hsm : env.Smooth) (hn : 0 < env.n) (j : Nat) (hj : j < env.files) :
    ∃ s, View env s [] ((List.range env.files).drop j) (List.replicate env.n .idle) (env.files - j) := by
  induction j with
  | zero => exact ⟨_, .init, rfl, rfl, rfl, rfl, rfl, rfl, rfl, rfl⟩
  | succ j ih =>
    obtain ⟨s, v⟩ := ih (by omega)
    rw [List.drop_eq_getElem_cons (by simp; omega)] at v
    obtain ⟨s1, v1⟩ := v.send (by simp)
    obtain ⟨s2, v2⟩ := v1.input ho hsm (idle_at hn)
    have hset : ∀ w : W, ((List.replicate env.n W.idle).set 0 w)[0]? = some w := fun w => List.getElem?_set_self (by simpa using hn)
    obtain ⟨s3, v3⟩ := v2.check (hset _) (by omega)
    rw [List.set_set] at v3
    obtain ⟨s4, v4⟩ := v3.decr (hset _)
    rw [set_back hn] at v4
    exact ⟨s4, by rw [show env.files - (j + 1) = env.files - j - 1 by omega]; exact v4⟩

/-- Nothing moves when all workers wait for an input that does not come. -/
theorem View.stuck_idle {env : Env} {s : State} {c : Nat} (hn : 0 < env.n) (v : View env s [] [] (List.replicate env.n .idle) c) : Hangs env s := by
  refine ⟨v.reach, stuck_of ?_ ?_ ?_, v.crashed, ?_⟩
  · unfold act; rw [if_neg (by simp [v.crashed])]; simp only [v.toSend]
  · unfold act; rw [if_neg (by simp [v.crashed])]; simp only [v.toSend, v.ws, v.joined, idle_at hn]; rfl
  · intro i hi
    rw [v.ws] at hi
    unfold act
    rw [if_neg (by simp [v.crashed])]
    simp only [v.ws, idle_at (by simpa using hi), work, v.queue, Option.map_none]
  · intro hr
    have := hr.2.2
    rw [v.joined] at this; omega

/-- **C51 is false for every run of two or more workers over two or more inputs**, whatever the inputs are, even if nothing fails: there is a
schedule in which it hangs. -/
theorem C51_race (env : Env) (ho : env.Ok) (hsm : env.Smooth) (hn : 2 ≤ env.n) (hf : 2 ≤ env.files) : ∃ s, Hangs env s := by
  obtain ⟨s, v⟩ := View.most ho hsm (by omega) (env.files - 2) (by omega)
  rw [List.drop_eq_getElem_cons (by simp; omega), List.drop_eq_getElem_cons (by simp; omega), List.drop_eq_nil_of_le (by simp; omega),
    show env.files - (env.files - 2) = 2 by omega] at v
  obtain ⟨s1, v1⟩ := v.send (by simp)
  obtain ⟨s2, v2⟩ := v1.send (by simp; omega)
  have h0 : ∀ w v : W, (((List.replicate env.n W.idle).set 0 w).set 1 v)[0]? = some w := by
    intro w v
    rw [List.getElem?_set_ne (by omega), List.getElem?_set_self (by simp; omega)]
  have h1 : ∀ w v : W, (((List.replicate env.n W.idle).set 0 w).set 1 v)[1]? = some v := fun w v => List.getElem?_set_self (by simp; omega)
  have c0 : ∀ w v x : W, ((((List.replicate env.n W.idle).set 0 w).set 1 v).set 0 x) = ((List.replicate env.n W.idle).set 0 x).set 1 v := by
    intro w v x
    rw [List.set_comm _ _ (by omega), List.set_set]
  obtain ⟨s3, v3⟩ := v2.input ho hsm (idle_at (show 0 < env.n by omega))
  obtain ⟨s4, v4⟩ := v3.input ho hsm (i := 1) (by rw [List.getElem?_set_ne (by omega)]; exact idle_at (by omega))
  obtain ⟨s5, v5⟩ := v4.check (h0 _ _) (by omega)
  rw [c0] at v5
  obtain ⟨s6, v6⟩ := v5.check (h1 _ _) (by omega)
  rw [List.set_set] at v6
  obtain ⟨s7, v7⟩ := v6.decr (h0 _ _)
  rw [c0] at v7
  obtain ⟨s8, v8⟩ := v7.decr (h1 _ _)
  rw [List.set_set] at v8
  have hidle : ∀ i, i < env.n → (List.replicate env.n W.idle).set i .idle = List.replicate env.n .idle := by
    intro i hi
    have := set_back hi .idle
    rwa [List.set_set] at this
  rw [hidle 0 (by omega), hidle 1 (by omega)] at v8
  exact ⟨s8, v8.stuck_idle (by omega)⟩

/-- **C51 is false for every run without a worker** over two or more inputs (`-j 0`): it hangs after sending the first one. -/
theorem C51_no_worker (env : Env) (hn : env.n = 0) (hf : 2 ≤ env.files) : ∃ s, Hangs env s := by
  have v : View env (init env) [] (List.range env.files) [] env.files := ⟨.init, rfl, rfl, by simp [init, hn], rfl, rfl, rfl, rfl, rfl⟩
  have hr : List.range env.files = 0 :: 1 :: (List.range env.files).drop 2 := by
    rw [← List.drop_zero (l := List.range env.files), List.drop_eq_getElem_cons (by simp; omega), List.drop_eq_getElem_cons (by simp; omega)]
    simp
  rw [hr] at v
  obtain ⟨s, v⟩ := v.send (by simp)
  refine ⟨s, v.reach, stuck_of ?_ ?_ ?_, v.crashed, ?_⟩
  · unfold act; rw [if_neg (by simp [v.crashed])]; simp only [v.toSend]
    rw [if_neg]
    rw [hasRoom_iff, v.queue, hn]
    simp
  · unfold act; rw [if_neg (by simp [v.crashed])]; simp only [v.toSend]; simp
  · intro i hi
    rw [v.ws] at hi; simp at hi
  · intro h
    have := h.2.1
    rw [v.toSend] at this; cases this

/-- A single worker that has more than one module to hand over, while nothing is in the queue. -/
structure Alone (env : Env) (s : State) (q : List Msg) (ds : List Item) : Prop where
  reach : Reachable env s
  queue : s.queue = q
  toSend : s.toSend = []
  ws : s.ws = [.sending ds 1]
  crashed : s.crashed = false
  joined : s.joined = 0

theorem Alone.send {env : Env} {s : State} {q : List Msg} {d : Item} {ds : List Item} (v : Alone env s q (d :: ds)) (hq : q.length < env.n + 1) :
    ∃ s', Alone env s' (q ++ [.dump d]) ds := by
  have hroom : s.hasRoom env = true := by rw [hasRoom_iff, v.queue]; exact hq
  have ha := go_worker (env := env) (i := 0) (w' := .sending ds 1) (s1 := { s with queue := s.queue ++ [.dump d] }) v.crashed
    (by rw [v.ws]; rfl) (by simp only [work, hroom, if_true])
  exact ⟨_, .step _ v.reach ha, by rw [← v.queue], v.toSend, by simp [v.ws], v.crashed, v.joined⟩

theorem Alone.stuck {env : Env} {s : State} {q : List Msg} {ds : List Item} (hn : env.n = 1) (v : Alone env s q ds) (hq : q.length = env.n + 1) :
    Hangs env s := by
  have hroom : ¬ s.hasRoom env = true := by rw [hasRoom_iff, v.queue]; omega
  refine ⟨v.reach, stuck_of ?_ ?_ ?_, v.crashed, ?_⟩
  · unfold act; rw [if_neg (by simp [v.crashed])]; simp only [v.toSend]
  · unfold act; rw [if_neg (by simp [v.crashed])]; simp only [v.toSend, v.ws, v.joined]; rfl
  · intro i hi
    rw [v.ws] at hi
    have h0 : i = 0 := by simpa using hi
    subst h0
    unfold act
    rw [if_neg (by simp [v.crashed])]
    have hw : work env s 0 (.sending ds 1) = none := by
      cases ds with
      | nil => simp only [work]; rw [if_neg hroom]
      | cons d ds => simp only [work]; rw [if_neg hroom]
    simp only [v.ws, List.getElem?_cons_zero, hw, Option.map_none]
  · intro hr
    have := hr.2.2
    rw [v.joined] at this; omega

theorem out_of_id {env : Env} {s : State} (hi : Inv env s) (hco : s.coordinator ≠ none) (hlost : ∀ w ∈ s.ws, w.lost = []) {x : Nat} {y : Str} (hx : x < env.files) (hy : HasId env x y) :
    ∃ d ∈ s.out, d.info.debugId = y := by
  have hm : x ∈ s.out.flatMap Item.src := (chosen_perm hi hco hlost).mem_iff.mpr (List.mem_range.mpr hx)
  obtain ⟨d, hd, hxd⟩ := List.mem_flatMap.mp hm
  obtain ⟨o, h1, h2⟩ := hy
  obtain ⟨o', h3, h4⟩ := (hi.made d hd).hasId x hxd
  rw [h1] at h3; cases h3
  exact ⟨d, hd, h4.symm.trans h2⟩

/-- **C51 is false for every run of one worker over inputs with different debug ids**, even if nothing fails. -/
theorem C51_one_worker (env : Env) (ho : env.Ok) (hsm : env.Smooth) (hn : env.n = 1) {f g : Nat} {k l : Str} (hf : f < env.files)
    (hg : g < env.files) (hk : HasId env f k) (hl : HasId env g l) (hne : k ≠ l) : ∃ s, Hangs env s := by
  obtain ⟨s, v⟩ := View.most ho hsm (by omega) (env.files - 1) (by omega)
  rw [List.drop_eq_getElem_cons (by simp; omega), List.drop_eq_nil_of_le (by simp; omega),
    show env.files - (env.files - 1) = 1 by omega, hn] at v
  obtain ⟨s1, v1⟩ := v.send (by simp)
  obtain ⟨s2, v2⟩ := v1.input ho hsm (i := 0) rfl
  obtain ⟨s3, v3⟩ := v2.last (i := 0) rfl
  have hp := (reach_clean ho hsm v3.reach).2
  have hw3 : s3.ws[0]? = some .coord := by rw [v3.ws]; rfl
  -- two modules are among those that come out of the table
  have two : ∀ (s : State) (w : W), Reachable env s → ¬ w.early → w.lost = [] → s.table = [] → s.queue = [] → s.ws = [w] → s.log = [] → 2 ≤ w.items.length := by
    intro s w hr he hlo ht hq hws hlog
    have hi := reach_inv ho hr
    have hout : s.out = w.items := by simp [State.out, ht, hq, hws, hlog]
    have hco : s.coordinator ≠ none := fun h => he ((hi.ph1 h).early w (by simp [hws]))
    have hlost : ∀ v ∈ s.ws, v.lost = [] := by intro v hv; rw [hws] at hv; rw [List.mem_singleton.mp hv]; exact hlo
    obtain ⟨d1, h1, h2⟩ := out_of_id hi hco hlost hf hk
    obtain ⟨d2, h3, h4⟩ := out_of_id hi hco hlost hg hl
    rw [hout] at h1 h3
    match hw : w.items with
    | [] => rw [hw] at h1; cases h1
    | [d] =>
      rw [hw] at h1 h3
      simp only [List.mem_singleton] at h1 h3
      exact (hne (by rw [← h2, ← h4, h1, h3])).elim
    | _ :: _ :: _ => simp
  have hcase : ∃ s4 w, act env (.worker 0) s3 = some s4 ∧ s4.ws = [w] ∧ s4.table = [] ∧ s4.queue = [] ∧ s4.toSend = [] ∧
      s4.crashed = false ∧ s4.joined = 0 ∧ s4.log = [] ∧ ((∃ d, w = .storing d) ∨ ∃ ds, w = .sending ds 1) := by
    cases hw : work env s3 0 .coord with
    | none =>
      simp only [work, v3.locked, hp, Bool.false_eq_true, if_false] at hw
      split at hw <;> cases hw
    | some p =>
      obtain ⟨w, s'⟩ := p
      have ha := go_worker (env := env) v3.crashed hw3 hw
      refine ⟨_, w, ha, by simp [v3.ws], ?_⟩
      simp only [work, v3.locked, hp, Bool.false_eq_true, if_false] at hw
      split at hw
      · cases hw
        exact ⟨rfl, v3.queue, v3.toSend, v3.crashed, v3.joined, v3.log, .inl ⟨_, rfl⟩⟩
      · cases hw
        exact ⟨rfl, v3.queue, v3.toSend, v3.crashed, v3.joined, v3.log, .inr ⟨_, by rw [hn]⟩⟩
  obtain ⟨s4, w, ha, hws, ht, hq, hts, hc, hj, hlog, hsplit⟩ := hcase
  have hr4 := Reachable.step _ v3.reach ha
  rcases hsplit with ⟨d, rfl⟩ | ⟨ds, rfl⟩
  · have := two s4 _ hr4 id rfl ht hq hws hlog
    simp [W.items] at this
  · have h2 := two s4 _ hr4 id rfl ht hq hws hlog
    simp only [W.items] at h2
    match ds with
    | d1 :: d2 :: ds =>
      have a : Alone env s4 [] (d1 :: d2 :: ds) := ⟨hr4, hq, hts, hws, hc, hj⟩
      obtain ⟨s5, a⟩ := a.send (by simp)
      obtain ⟨s6, a⟩ := a.send (by simp [hn])
      exact ⟨s6, a.stuck hn (by simp [hn])⟩

/-- **C51, exactly**: a run over two or more inputs in which nothing fails can hang, unless there is one worker and all inputs have the same
debug id. -/
theorem C51_hangs_iff (env : Env) (ho : env.Ok) (hsm : env.Smooth) (hf : 2 ≤ env.files) :
    (∃ s, Hangs env s) ↔
      env.n ≠ 1 ∨ ∃ f g k l, f < env.files ∧ g < env.files ∧ HasId env f k ∧ HasId env g l ∧ k ≠ l := by
  constructor
  · rintro ⟨s, hr, hst, hc, hret⟩
    by_cases hn : env.n = 1
    · rcases C51_terminates_partial env ho hsm (by omega) (by omega) s hr hst with h | h | h
      · exact (hret h).elim
      · omega
      · exact .inr h.2
    · exact .inl hn
  · intro h
    by_cases hn : env.n = 1
    · rcases h with h | ⟨f, g, k, l, h1, h2, h3, h4, h5⟩
      · exact (h hn).elim
      · exact C51_one_worker env ho hsm hn h1 h2 h3 h4 h5
    · rcases Nat.lt_or_ge env.n 2 with h1 | h1
      · exact C51_no_worker env (by omega) hf
      · exact C51_race env ho hsm h1 hf

/-- **C51, exactly**: every way to go on with such a run ends in a return if and only if there is one worker and all inputs have the same debug
id (that every run ends is `C51_finite`). -/
theorem C51_returns_iff (env : Env) (ho : env.Ok) (hsm : env.Smooth) (hf : 2 ≤ env.files) :
    (∀ s, Reachable env s → Stuck env s → s.Returned env) ↔
      env.n = 1 ∧ ∀ f g k l, f < env.files → g < env.files → HasId env f k → HasId env g l → k = l := by
  have hiff := C51_hangs_iff env ho hsm hf
  constructor
  · intro h
    have hno : ¬ ∃ s, Hangs env s := fun ⟨s, h1, h2, _, h4⟩ => h4 (h s h1 h2)
    rw [hiff] at hno
    refine ⟨Decidable.byContradiction fun hn => hno (.inl hn), fun f g k l h1 h2 h3 h4 => ?_⟩
    exact Decidable.byContradiction fun hne => hno (.inr ⟨f, g, k, l, h1, h2, h3, h4, hne⟩)
  · rintro ⟨hn, hall⟩ s h1 h2
    refine Classical.byContradiction fun h4 => ?_
    rcases hiff.mp ⟨s, h1, h2, reach_not_crashed ho hsm h1, h4⟩ with h | ⟨f, g, k, l, a, b, c, d, e⟩
    · exact h hn
    · exact e (hall f g k l a b c d)

/-! ## Examples -/

theorem two_smooth (n files : Nat) : (okEnv n files two).Ok ∧ (okEnv n files two).Smooth := ⟨okEnv_ok _ _ _, okEnv_smooth _ _⟩

/-- Three workers, five inputs. -/
example : ∃ s, Hangs (okEnv 3 5 two) s :=
  (C51_hangs_iff _ (two_smooth 3 5).1 (two_smooth 3 5).2 (by decide)).mpr (.inl (by decide))

/-- One worker, five inputs, two debug ids. -/
example : ∃ s, Hangs (okEnv 1 5 two) s :=
  (C51_hangs_iff _ (two_smooth 1 5).1 (two_smooth 1 5).2 (by decide)).mpr
    (.inr ⟨0, 1, str% "A", str% "B", by decide, by decide, ⟨_, rfl, rfl⟩, ⟨_, rfl, rfl⟩, by decide⟩)

theorem same_smooth (n files : Nat) : (okEnv n files same).Smooth where
  parses := fun _ _ => ⟨_, rfl⟩
  stores := fun _ _ _ => rfl
  merges := by
    intro f l o p _ _ ho hm _
    have key : ∀ l p, Made (okEnv n files same) l p → p = plain (str% "A") := by
      intro l p h
      induction h with
      | one f o ho => simp only [okEnv, same] at ho; cases ho; rfl
      | more f l o p c ho _ hm ih =>
        simp only [okEnv, same] at ho
        simp only [okEnv] at hm
        cases ho
        rw [ih, plainA] at hm; cases hm; rfl
    rw [key l p hm, key [f] o (.one f o ho)]
    exact ⟨_, plainA⟩

/-- One worker, five inputs, one debug id: every run returns. -/
example : ∀ s, Reachable (okEnv 1 5 same) s → Stuck (okEnv 1 5 same) s → s.Returned (okEnv 1 5 same) :=
  (C51_returns_iff _ (okEnv_ok _ _ _) (same_smooth 1 5) (by decide)).mpr ⟨rfl, by
    rintro f g k l _ _ ⟨o, h1, h2⟩ ⟨p, h3, h4⟩
    cases h1; cases h3
    rw [← h2, ← h4]⟩

end Threads
end DumpSyms
