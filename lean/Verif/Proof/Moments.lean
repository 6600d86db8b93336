import Verif.Proof.Writing
/-!
# Invariants of the moments of a run
-/
namespace DumpSyms
namespace Threads
open Output

/-- What worker `i` is writing. -/
def State.job (s : State) (i : Nat) : Option Item := s.ws[i]?.bind W.job

theorem worker_moved {env : Env} {i : Nat} {s s' : State} (h : act env (.worker i) s = some s') :
    ∃ w w', s.ws[i]? = some w ∧ s'.ws = s.ws.set i w' ∧ (∀ d, w.job = some d → s'.log = d :: s.log ∧ w'.job = none) ∧
      (w.job = none → s'.log = s.log) := by
  unfold act at h
  split at h
  · cases h
  · simp only at h
    split at h
    · cases h
    · rename_i w hw
      rw [Option.map_eq_some_iff] at h
      obtain ⟨⟨w', s1⟩, h1, h2⟩ := h
      subst h2
      refine ⟨w, w', hw, rfl, ?_⟩
      simp only
      have fin : ∀ (w : W), work env s i w = some (w', s1) → (∀ d, w.job = some d → s1.log = d :: s.log ∧ w'.job = none) ∧
          (w.job = none → s1.log = s.log) := by
        intro w h1
        have key : ∀ (v : W) (x : State) (P : Prop), some (v, x) = some (w', s1) → ((v = w' → x = s1 → P) → P) := by
          intro v x P h k; cases h; exact k rfl rfl
        unfold work at h1
        split at h1 <;> (repeat' split at h1) <;>
          first
          | (cases h1; done)
          | (refine key _ _ _ h1 fun e1 e2 => ?_
             subst e1 e2
             refine ⟨fun d hd => ?_, fun hd => ?_⟩ <;> simp_all [W.job])
      exact fin w h1

theorem act_main {env : Env} {a : Action} {s s' : State} (ha : ∀ i, a ≠ .worker i) (h : act env a s = some s') : s'.ws = s.ws ∧ s'.log = s.log := by
  unfold act at h
  split at h
  · cases h
  · cases a with
    | worker i => exact absurd rfl (ha i)
    | send =>
      simp only at h
      repeat' split at h
      all_goals (cases h; first | done | exact ⟨rfl, rfl⟩)
    | join =>
      simp only at h
      repeat' split at h
      all_goals (cases h; first | done | exact ⟨rfl, rfl⟩)

theorem job_items {w : W} {d : Item} (h : w.job = some d) : d ∈ w.items := by
  cases w <;> simp_all [W.job, W.items]

/-- The module is being written by a worker, or was written. -/
def State.Busy (s : State) (d : Item) : Prop := d ∈ s.log ∨ ∃ i, s.job i = some d

theorem job_ws {s : State} {i : Nat} {d : Item} (h : s.job i = some d) : ∃ w, s.ws[i]? = some w ∧ w.job = some d := by
  unfold State.job at h
  rw [Option.bind_eq_some_iff] at h
  exact h

theorem busy_out {s : State} {d : Item} (h : s.Busy d) : d ∈ s.out := by
  rcases h with h | ⟨i, h⟩
  · exact mem_out.mpr (.inr (.inr (.inr h)))
  · obtain ⟨w, h1, h2⟩ := job_ws h
    exact mem_out.mpr (.inr (.inr (.inl ⟨w, List.mem_of_getElem? h1, mem_wItems.mp (job_items h2)⟩)))

theorem flat_two {α β : Type} {f : α → List β} {g : β → Str} {l : List α} (h : ((l.flatMap f).map g).Nodup) {i j : Nat} {a b : α} {x y : β}
    (hi : l[i]? = some a) (hj : l[j]? = some b) (hx : x ∈ f a) (hy : y ∈ f b) (hg : g x = g y) : i = j := by
  induction l generalizing i j with
  | nil => cases hi
  | cons c l ih =>
    rw [List.flatMap_cons, List.map_append, List.nodup_append] at h
    obtain ⟨_, h2, h3⟩ := h
    have key : ∀ {k : Nat} {u v : β} {e : α}, u ∈ f c → l[k]? = some e → v ∈ f e → g u = g v → False := by
      intro k u v e hu hk hv hg
      exact h3 (g u) (List.mem_map.mpr ⟨u, hu, rfl⟩) (g v) (List.mem_map.mpr ⟨v, List.mem_flatMap.mpr ⟨e, List.mem_of_getElem? hk, hv⟩, rfl⟩) hg
    cases i with
    | zero =>
      cases j with
      | zero => rfl
      | succ j =>
        simp only [List.getElem?_cons_zero, Option.some.injEq, List.getElem?_cons_succ] at hi hj
        subst hi
        exact (key hx hj hy hg).elim
    | succ i =>
      cases j with
      | zero =>
        simp only [List.getElem?_cons_zero, Option.some.injEq, List.getElem?_cons_succ] at hi hj
        subst hj
        exact (key hy hi hx hg.symm).elim
      | succ j =>
        simp only [List.getElem?_cons_succ] at hi hj
        rw [ih h2 hi hj]

theorem jobs_same {env : Env} {s : State} (hi : Inv env s) {i j : Nat} {d e : Item} (h1 : s.job i = some d) (h2 : s.job j = some e)
    (hid : d.info.debugId = e.info.debugId) : i = j := by
  have hn := ids_nodup hi
  simp only [State.out, List.map_append] at hn
  rw [List.nodup_append] at hn
  have hn := (List.nodup_append.mp hn.1).2.1
  obtain ⟨w, a1, a2⟩ := job_ws h1
  obtain ⟨v, b1, b2⟩ := job_ws h2
  exact flat_two hn a1 b1 (job_items a2) (job_items b2) hid

theorem job_log {env : Env} {s : State} (hi : Inv env s) {i : Nat} {d e : Item} (h1 : s.job i = some d) (h2 : e ∈ s.log)
    (hid : d.info.debugId = e.info.debugId) : False := by
  have hn := ids_nodup hi
  simp only [State.out, List.map_append] at hn
  rw [List.nodup_append] at hn
  obtain ⟨w, a1, a2⟩ := job_ws h1
  refine hn.2.2 d.info.debugId ?_ e.info.debugId (List.mem_map.mpr ⟨e, h2, rfl⟩) hid
  refine List.mem_append.mpr (.inr (List.mem_map.mpr ⟨d, ?_, rfl⟩))
  exact List.mem_flatMap.mpr ⟨w, List.mem_of_getElem? a1, job_items a2⟩

section
variable (env : Env) (calls : ObjectInfo → List Todo) (req : ObjectInfo → FileOutput → Prop) (part : ObjectInfo → FileOutput → Option Bytes → Prop)
  (fin : ObjectInfo → FileOutput → Option Bytes) (out : World)

/-- What holds at every moment, for a destination that modules of at most one debug id go to.  `req`: the destinations of a module; `part`: what a
destination can hold while a module is written to it; `fin`: what it holds afterwards. -/
structure Going (fo : FileOutput) (m : Moment) : Prop where
  reach : Reachable env m.s
  idle : ∀ i, m.s.job i = none → m.todo i = []
  own : ∀ i d, m.s.job i = some d → ∀ t ∈ m.todo i, ∀ f, t.dest = some f → req d.info f
  going : ∀ i d, m.s.job i = some d → req d.info fo →
    Along fo (part d.info fo) (m.todo i) (m.out.seen fo) ∧
    finish fo (m.todo i) (m.out.seen fo) = fin d.info fo
  done : ∀ d ∈ m.s.log, req d.info fo → part d.info fo (m.out.seen fo) ∧
    m.out.seen fo = fin d.info fo
  quiet : (∀ d, m.s.Busy d → ¬req d.info fo) → m.out.seen fo = out.seen fo

variable {env calls req part fin out}

theorem moments_reach {m : Moment} (h : Moments env calls out m) : Reachable env m.s := by
  induction h with
  | init => exact .init
  | @step m m' a _ hg ih =>
    cases a with
    | move a =>
      cases a with
      | worker i =>
        simp only [Turn.go] at hg
        split at hg
        · obtain ⟨s, h1, h2⟩ := Option.map_eq_some_iff.mp hg
          subst h2; exact .step _ ih h1
        · cases hg
      | send =>
        obtain ⟨s, h1, h2⟩ := Option.map_eq_some_iff.mp hg
        subst h2; exact .step _ ih h1
      | join =>
        obtain ⟨s, h1, h2⟩ := Option.map_eq_some_iff.mp hg
        subst h2; exact .step _ ih h1
    | call i k =>
      simp only [Turn.go] at hg
      split at hg
      · cases hg
      · split at hg
        · cases hg
        · cases hg; exact ih

theorem job_set {s s' : State} {i : Nat} {w w' : W} (hw : s.ws[i]? = some w) (hs : s'.ws = s.ws.set i w') (j : Nat) :
    s'.job j = if j = i then w'.job else s.job j := by
  unfold State.job
  rw [hs]
  split
  · rename_i h
    rw [h, List.getElem?_set_self (List.getElem?_eq_some_iff.mp hw).1]; rfl
  · rename_i h
    rw [List.getElem?_set_ne (fun e => h e.symm)]

theorem going_main {fo : FileOutput} {m : Moment} (hg : Going env req part fin out fo m) {a : Action} (ha : ∀ i, a ≠ .worker i)
    {s : State} (h : act env a m.s = some s) : Going env req part fin out fo { m with s := s } := by
  obtain ⟨h1, h2⟩ := act_main ha h
  have hj : ∀ i, s.job i = m.s.job i := fun i => by unfold State.job; rw [h1]
  have hb : ∀ d, s.Busy d ↔ m.s.Busy d := fun d => by unfold State.Busy; simp only [h2, hj]
  refine ⟨.step _ hg.reach h, ?_, ?_, ?_, ?_, ?_⟩
  · intro i; simp only [hj]; exact hg.idle i
  · intro i; simp only [hj]; exact hg.own i
  · intro i; simp only [hj]; exact hg.going i
  · simp only [h2]; exact hg.done
  · simp only [hb]; exact hg.quiet

theorem going_worker (ho : env.Ok) {fo : FileOutput} (hdest : ∀ l o, MadeOnce env l o → ∀ t ∈ calls o, ∀ f, t.dest = some f → req o f)
    (halong : ∀ o, Along fo (part o fo) (calls o) (out.seen fo) ∧ finish fo (calls o) (out.seen fo) = fin o fo)
    (honly : ∀ l o l' o', MadeOnce env l o → MadeOnce env l' o' → req o fo → req o' fo →
      o.debugId = o'.debugId)
    {m : Moment} (hg : Going env req part fin out fo m) {i : Nat} (ht : m.todo i = []) {s : State}
    (h : act env (.worker i) m.s = some s) :
    Going env req part fin out fo
      { m with s := s, todo := fun j => if j = i then s.todo calls i else m.todo j } := by
  have hr : Reachable env s := .step _ hg.reach h
  have hinv := reach_inv ho hr
  obtain ⟨w, w', hw, hs, hjob, hnojob⟩ := worker_moved h
  have hj := job_set hw hs
  have hmi : m.s.job i = w.job := by unfold State.job; rw [hw]; rfl
  have htodo : s.todo calls i = match w'.job with | some d => calls d.info | none => [] := by
    have := hj i
    simp only [State.job, if_true] at this
    unfold State.todo
    rw [this]
    cases w'.job <;> rfl
  refine ⟨hr, ?_, ?_, ?_, ?_, ?_⟩
  · intro j
    simp only [hj]
    by_cases e : j = i
    · simp only [e, if_true]; intro hn; rw [htodo, hn]
    · simp only [e, if_false]; exact hg.idle j
  · intro j d
    simp only [hj]
    by_cases e : j = i
    · simp only [e, if_true]
      intro hd t ht f hf
      rw [htodo, hd] at ht
      have hb : d ∈ s.out := busy_out (.inr ⟨i, by rw [hj]; simpa using hd⟩)
      exact hdest _ _ (madeOnce hinv hb) t ht f hf
    · simp only [e, if_false]; exact hg.own j d
  · intro j d
    simp only [hj]
    by_cases e : j = i
    · simp only [e, if_true]
      intro hd hreq
      rw [htodo, hd]
      have hsj : s.job i = some d := by rw [hj]; simpa using hd
      have hdm := madeOnce hinv (busy_out (.inr ⟨i, hsj⟩))
      have hnone : w.job = none := by
        cases hwj : w.job with
        | none => rfl
        | some x => rw [(hjob x hwj).2] at hd; cases hd
      have hquiet : m.out.seen fo = out.seen fo := by
        refine hg.quiet fun x hx hxr => ?_
        rcases hx with hx | ⟨j, hx⟩
        · have hx' : x ∈ s.log := by rw [hnojob hnone]; exact hx
          exact job_log hinv hsj hx' (honly _ _ _ _ hdm (madeOnce hinv (busy_out (.inl hx'))) hreq hxr)
        · have hji : j ≠ i := by rintro rfl; rw [hmi, hnone] at hx; cases hx
          have hx' : s.job j = some x := by rw [hj, if_neg hji]; exact hx
          exact hji (jobs_same hinv hx' hsj (honly _ _ _ _ (madeOnce hinv (busy_out (.inr ⟨j, hx'⟩))) hdm hxr hreq))
      rw [hquiet]
      exact halong d.info
    · simp only [e, if_false]; exact hg.going j d
  · intro d hd hreq
    simp only at hd ⊢
    cases hwj : w.job with
    | none => rw [hnojob hwj] at hd; exact hg.done d hd hreq
    | some x =>
      rw [(hjob x hwj).1] at hd
      rcases List.mem_cons.mp hd with rfl | hd
      · have := hg.going i d (by rw [hmi, hwj]) hreq
        rw [ht] at this
        exact this
      · exact hg.done d hd hreq
  · intro hq
    simp only at hq ⊢
    refine hg.quiet fun d hd => hq d ?_
    rcases hd with hd | ⟨j, hd⟩
    · left
      cases hwj : w.job with
      | none => rw [hnojob hwj]; exact hd
      | some x => rw [(hjob x hwj).1]; exact List.mem_cons_of_mem _ hd
    · by_cases e : j = i
      · subst e
        rw [hmi] at hd
        left; rw [(hjob d hd).1]; exact List.mem_cons_self
      · exact .inr ⟨j, by rw [hj, if_neg e]; exact hd⟩

theorem going_call (ho : env.Ok) {fo : FileOutput}
    (honly : ∀ l o l' o', MadeOnce env l o → MadeOnce env l' o' → req o fo → req o' fo → o.debugId = o'.debugId)
    {m : Moment} (hg : Going env req part fin out fo m) {i k : Nat} {t : Todo} {ts : List Todo} (ht : m.todo i = t :: ts) :
    Going env req part fin out fo
      { m with out := (t.make k m.out).2, todo := fun j => if j = i then (t.make k m.out).1 ++ ts else m.todo j } := by
  have hinv := reach_inv ho hg.reach
  cases hji : m.s.job i with
  | none => rw [hg.idle i hji] at ht; cases ht
  | some d =>
    have hdm := madeOnce hinv (busy_out (.inr ⟨i, hji⟩))
    have howns : ∀ u ∈ (t.make k m.out).1 ++ ts, ∀ f, u.dest = some f → req d.info f := by
      intro u hu f hf
      rcases List.mem_append.mp hu with hu | hu
      · rw [make_dest k t m.out u hu] at hf
        exact hg.own i d hji t (by rw [ht]; simp) f hf
      · exact hg.own i d hji u (by rw [ht]; simp [hu]) f hf
    by_cases hreq : req d.info fo
    · have hlog : ∀ e ∈ m.s.log, ¬req e.info fo := fun e he hr =>
        job_log hinv hji he (honly _ _ _ _ hdm (madeOnce hinv (busy_out (.inl he))) hreq hr)
      have hjobs : ∀ j e, m.s.job j = some e → req e.info fo → j = i := fun j e he hr =>
        jobs_same hinv he hji (honly _ _ _ _ (madeOnce hinv (busy_out (.inr ⟨j, he⟩))) hdm hr hreq)
      refine ⟨hg.reach, ?_, ?_, ?_, ?_, ?_⟩
      · intro j hj
        have : j ≠ i := by rintro rfl; rw [hji] at hj; cases hj
        simp only [this, if_false]; exact hg.idle j hj
      · intro j e hj
        by_cases hc : j = i
        · subst hc
          rw [hji] at hj; cases hj
          simp only [if_true]; exact howns
        · simp only [hc, if_false]; exact hg.own j e hj
      · intro j e hj hr
        have hc := hjobs j e hj hr
        subst hc
        rw [hji] at hj; cases hj
        have := hg.going j d hji hreq
        rw [ht] at this
        simp only [if_true]
        exact ⟨along_make k this.1, (finish_make fo k t ts m.out).trans this.2⟩
      · exact fun e he hr => absurd hr (hlog e he)
      · exact fun hq => absurd hreq (hq d (.inr ⟨i, hji⟩))
    · have hseen : (t.make k m.out).2.seen fo = m.out.seen fo :=
        make_other fun e => hreq (hg.own i d hji t (by rw [ht]; simp) fo e)
      refine ⟨hg.reach, ?_, ?_, ?_, ?_, ?_⟩
      · intro j hj
        have : j ≠ i := by rintro rfl; rw [hji] at hj; cases hj
        simp only [this, if_false]; exact hg.idle j hj
      · intro j e hj
        by_cases hc : j = i
        · subst hc
          rw [hji] at hj; cases hj
          simp only [if_true]; exact howns
        · simp only [hc, if_false]; exact hg.own j e hj
      · intro j e hj hr
        have hc : j ≠ i := by rintro rfl; rw [hji] at hj; cases hj; exact hreq hr
        simp only [hc, if_false, hseen]
        exact hg.going j e hj hr
      · simp only [hseen]; exact hg.done
      · simp only [hseen]; exact hg.quiet

theorem moments_going_of (ho : env.Ok) {fo : FileOutput} (hdest : ∀ l o, MadeOnce env l o → ∀ t ∈ calls o, ∀ f, t.dest = some f → req o f)
    (halong : ∀ o, Along fo (part o fo) (calls o) (out.seen fo) ∧ finish fo (calls o) (out.seen fo) = fin o fo)
    (honly : ∀ l o l' o', MadeOnce env l o → MadeOnce env l' o' → req o fo → req o' fo →
      o.debugId = o'.debugId)
    {m : Moment} (h : Moments env calls out m) : Going env req part fin out fo m := by
  induction h with
  | init =>
    have hj : ∀ i, (init env).job i = none := by
      intro i
      simp only [State.job, init, List.getElem?_replicate]
      split <;> rfl
    refine ⟨.init, fun _ _ => rfl, ?_, ?_, ?_, fun _ => rfl⟩
    · intro i d hd; simp only [hj] at hd; cases hd
    · intro i d hd; simp only [hj] at hd; cases hd
    · intro d hd; cases hd
  | @step m m' a _ hgo ih =>
    cases a with
    | move a =>
      cases a with
      | worker i =>
        simp only [Turn.go] at hgo
        split at hgo
        · rename_i ht
          obtain ⟨s, h1, h2⟩ := Option.map_eq_some_iff.mp hgo
          subst h2; exact going_worker ho hdest halong honly ih ht h1
        · cases hgo
      | send =>
        obtain ⟨s, h1, h2⟩ := Option.map_eq_some_iff.mp hgo
        subst h2; exact going_main ih (fun i e => by cases e) h1
      | join =>
        obtain ⟨s, h1, h2⟩ := Option.map_eq_some_iff.mp hgo
        subst h2; exact going_main ih (fun i e => by cases e) h1
    | call i k =>
      simp only [Turn.go] at hgo
      split at hgo
      · cases hgo
      · split at hgo
        · cases hgo
        · rename_i t ts ht
          cases hgo; exact going_call ho honly ih ht

end

theorem moments_going {env : Env} {io : IoEnv} {extra : Option (List Str)} {output : Out} {checkCfi : Bool} {out : World} (ho : env.Ok)
    (hname : ∀ l o, MadeOnce env l o → '/' ∉ o.fileName) (hch : ∀ t, (io.chunks t).flatten = Utf8.encode t)
    {fo : FileOutput} (honly : ∀ l o l' o', MadeOnce env l o → MadeOnce env l' o' → Requested output o fo → Requested output o' fo →
      o.debugId = o'.debugId)
    {m : Moment} (h : Moments env (Output.callsOf io extra output checkCfi) out m) :
    Going env (Requested output) (fun o fo => Partway extra o fo (out.seen fo))
      (fun o fo => (store io extra output checkCfi o out).2.seen fo) out fo m :=
  moments_going_of ho (fun _ _ hm _ ht _ hf => todoOf_dest (hname _ _ hm) ht hf)
    (fun o => ⟨along_todoOf hch fo _, (todoOf_store io extra output checkCfi o fo out).2⟩) honly h

end Threads
end DumpSyms
