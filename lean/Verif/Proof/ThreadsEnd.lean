import Verif.Proof.ThreadsInv
/-!
# Multi-file runs are finite, and where they can get stuck
-/
namespace DumpSyms
namespace Threads

/-! ## A measure that every step decreases -/

def Msg.weight (n : Nat) : Msg → Nat
  | .get _ => 11 + 2 * n
  | .dump _ => 3
  | .stop => 1

def W.weight (n : Nat) : W → Nat
  | .idle => 0
  | .parsing _ => 10 + 2 * n
  | .merging _ => 9 + 2 * n
  | .aborting _ _ k => 1 + 2 * k
  | .check => 4 + 2 * n
  | .decr => 1
  | .coord => 3 + 2 * n
  | .storing _ => 2 + 2 * n
  | .sending ds k => 1 + 4 * ds.length + 2 * k
  | .dumping _ => 2
  | .ended => 0
  | .failed _ => 0
  | .panicked _ _ => 0

def measure (env : Env) (s : State) : Nat :=
  (12 + 2 * env.n) * s.toSend.length + sumBy (Msg.weight env.n) s.queue + sumBy (W.weight env.n) s.ws + 4 * s.table.length +
    (env.n - s.joined) + (if s.crashed then 0 else 1)

theorem tableRemove_length (t : List (Str × Item)) (k : Str) : (tableRemove t k).length ≤ t.length := List.length_filter_le _ _

theorem tableRemove_lt {t : List (Str × Item)} {k : Str} {d : Item} (h : t.lookup k = some d) :
    (tableRemove t k).length < t.length := by
  unfold tableRemove
  rw [List.length_filter_lt_length_iff_exists]
  exact ⟨_, lookup_mem h, by simp⟩

theorem measure_step {env : Env} (ho : env.Ok) {s s' : State} (hl : s.ws.length = env.n) (hc : s.crashed = false) (h : Step env s s') :
    measure env s' < measure env s := by
  have hn := Nat.le_refl env.n
  cases h with
  | send f fs h1 h2 =>
    simp only [measure, h1, List.length_cons, sumBy_append, sumBy_cons, Msg.weight, sumBy_nil, Nat.mul_add]
    omega
  | join w ht hw hd =>
    have : s.joined < s.ws.length := by
      rcases Nat.lt_or_ge s.joined s.ws.length with h | h
      · exact h
      · rw [List.getElem?_eq_none h] at hw; cases hw
    simp only [measure]
    omega
  | crash l k ht hw => simp [measure, hc]
  | mergeNew a b d hw _ _ hlk =>
    have h1 := tableRemove_length s.table d.info.debugId
    simp only [measure, hw, tableInsert, sumBy_append, sumBy_cons, W.weight, List.length_cons]
    omega
  | mergeOk a b d prev c hw _ _ hlk hm =>
    have h1 := tableRemove_lt hlk
    have h2 := tableRemove_length (tableRemove s.table d.info.debugId) c.debugId
    simp only [measure, hw, tableInsert, sumBy_append, sumBy_cons, W.weight, List.length_cons]
    omega
  | mergeErr a b d prev m hw _ _ hlk hm =>
    have h1 := tableRemove_lt hlk
    simp only [measure, hw, sumBy_append, sumBy_cons, W.weight]
    omega
  | mergePanic a b d prev hw _ _ hlk hm =>
    have h1 := tableRemove_lt hlk
    simp only [measure, hw, sumBy_append, sumBy_cons, W.weight]
    omega
  | coordOne a b k d hw _ _ hr =>
    simp only [measure, hw, sumBy_append, sumBy_cons, W.weight, List.length_nil]
    omega
  | coordMany a b hw _ _ hr =>
    have := (ho s.table).length_eq
    simp only [measure, hw, sumBy_append, sumBy_cons, W.weight, List.length_nil, List.length_map, this]
    omega
  | _ =>
    have hw := ‹s.ws = _ ++ _ :: _›
    simp_all [measure, W.weight, Msg.weight] <;> omega

theorem run_measure {env : Env} (ho : env.Ok) {as : List Action} {s s' : State} (hi : Inv env s) (h : run env as s = some s') :
    as.length + measure env s' ≤ measure env s := by
  induction as generalizing s with
  | nil => cases h; simp
  | cons a as ih =>
    simp only [run] at h
    cases ha : act env a s with
    | none => rw [ha] at h; cases h
    | some s1 =>
      rw [ha] at h
      obtain ⟨hc, hs⟩ := act_step ha
      have h1 := ih (inv_step ho hi hs) h
      have h2 := measure_step ho hi.len hc hs
      simp; omega

/-! ## Who can move -/

theorem act_worker {env : Env} {s : State} (hc : s.crashed = false) {i : Nat} {w : W} (hw : s.ws[i]? = some w)
    (h : act env (.worker i) s = none) : work env s i w = none := by
  unfold act at h
  rw [if_neg (by simp [hc])] at h
  simp only [hw] at h
  simpa using h

theorem stuck_worker {env : Env} {s : State} (hs : Stuck env s) (hc : s.crashed = false) {w : W} (hw : w ∈ s.ws) :
    ∃ i, work env s i w = none := by
  obtain ⟨i, hi, rfl⟩ := List.mem_iff_getElem.mp hw
  exact ⟨i, act_worker hc (List.getElem?_eq_getElem hi) (hs _)⟩

/-- A worker that cannot move waits for a message, for the lock, for room in the queue, or is finished. -/
theorem work_none {env : Env} {s : State} {i : Nat} {w : W} (h : work env s i w = none) :
    (w = .idle ∧ s.queue = []) ∨ (s.locked = true ∧ ((∃ d, w = .merging d) ∨ w = .coord)) ∨
    (env.n + 1 ≤ s.queue.length ∧ ((∃ l l' k, w = .aborting l l' (k + 1)) ∨ (∃ d ds k, w = .sending (d :: ds) k) ∨ ∃ k, w = .sending [] (k + 1))) ∨
    w = .ended ∨ (∃ l, w = .failed l) ∨ (∃ l k, w = .panicked l k) := by
  have hroom : ¬ s.hasRoom env = true → env.n + 1 ≤ s.queue.length := fun h => by
    rw [hasRoom_iff] at h; omega
  cases w with
  | idle =>
    simp only [work] at h
    split at h <;> first | cases h | skip
    rename_i hq
    exact .inl ⟨rfl, hq⟩
  | parsing f => simp only [work] at h; split at h <;> cases h
  | merging d =>
    simp only [work] at h
    split at h
    · rename_i hl; exact .inr (.inl ⟨hl, .inl ⟨d, rfl⟩⟩)
    · split at h
      · cases h
      · split at h
        · cases h
        · split at h <;> cases h
  | aborting l l' k =>
    cases k with
    | zero => simp [work] at h
    | succ k =>
      simp only [work] at h
      split at h
      · cases h
      · rename_i hr; exact .inr (.inr (.inl ⟨hroom hr, .inl ⟨l, l', k, rfl⟩⟩))
  | check => simp only [work] at h; split at h <;> cases h
  | decr => simp [work] at h
  | coord =>
    simp only [work] at h
    split at h
    · rename_i hl; exact .inr (.inl ⟨hl, .inr rfl⟩)
    · split at h
      · cases h
      · split at h <;> cases h
  | storing d => simp only [work] at h; split at h <;> cases h
  | sending ds k =>
    cases ds with
    | nil =>
      cases k with
      | zero => simp [work] at h
      | succ k =>
        simp only [work] at h
        split at h
        · cases h
        · rename_i hr; exact .inr (.inr (.inl ⟨hroom hr, .inr (.inr ⟨k, rfl⟩)⟩))
    | cons d ds =>
      simp only [work] at h
      split at h
      · cases h
      · rename_i hr; exact .inr (.inr (.inl ⟨hroom hr, .inr (.inl ⟨d, ds, k, rfl⟩)⟩))
  | dumping d => simp only [work] at h; split at h <;> cases h
  | ended => simp
  | failed l => simp
  | panicked l k => simp

theorem stuck_send {env : Env} {s : State} (hs : Stuck env s) (hc : s.crashed = false) :
    s.toSend = [] ∨ env.n + 1 ≤ s.queue.length := by
  have h := hs .send
  unfold act at h
  rw [if_neg (by simp [hc])] at h
  simp only at h
  split at h
  · rename_i ht; exact .inl ht
  · split at h
    · cases h
    · rename_i hr; right; rw [hasRoom_iff] at hr; omega

theorem stuck_join {env : Env} {s : State} (hs : Stuck env s) (hc : s.crashed = false) (ht : s.toSend = []) {w : W}
    (hw : s.ws[s.joined]? = some w) : ¬ w.done := by
  have h := hs .join
  unfold act at h
  rw [if_neg (by simp [hc])] at h
  simp only [ht, ne_eq, not_true_eq_false, if_false, hw] at h
  intro hd
  cases w with
  | ended => cases h
  | failed l => cases h
  | _ => exact hd

theorem mem_of_joined {env : Env} {s : State} (hi : Inv env s) (hj : s.joined = env.n) {w : W} (hw : w ∈ s.ws) : w.done := by
  obtain ⟨i, hil, rfl⟩ := List.mem_iff_getElem.mp hw
  obtain ⟨w', h1, h2⟩ := hi.joined i (by rw [hj, ← hi.len]; exact hil)
  rw [List.getElem?_eq_getElem hil] at h1
  cases h1; exact h2

theorem joined_le {env : Env} {s : State} (hi : Inv env s) : s.joined ≤ env.n := by
  rcases Nat.lt_or_ge env.n s.joined with h | h
  · obtain ⟨w, h1, _⟩ := hi.joined env.n h
    rw [List.getElem?_eq_none (by rw [hi.len]; exact Nat.le_refl _)] at h1
    cases h1
  · exact h

theorem fin_all {l : List W} (h : ∀ w ∈ l, w = .ended) : sumBy W.fin l = l.length := by
  induction l with
  | nil => rfl
  | cons w l ih =>
    rw [sumBy_cons, ih fun x hx => h x (by simp [hx]), h w (by simp)]
    simp [W.fin]; omega

/-- Where a run can get stuck, as long as no worker failed. -/
theorem stuck_cause {env : Env} {s : State} (hi : Inv env s) (hn : 0 < env.n) (hs : Stuck env s) (hc : s.crashed = false)
    (hbad : ∀ w ∈ s.ws, w.bad = 0) (hr : ¬ s.Returned env) :
    s.counter = 0 ∨ (env.n = 1 ∧ ∃ d d' q, s.queue = .dump d :: .dump d' :: q) := by
  have hnb : ∀ w ∈ s.ws, (∀ l, w ≠ .failed l) ∧ ∀ l k, w ≠ .panicked l k := by
    intro w hw
    have := hbad w hw
    constructor
    · intro l h; rw [h] at this; cases this
    · intro l k h; rw [h] at this; cases this
  by_cases hco : s.coordinator = none
  · left
    have h1 := hi.ph1 hco
    have hidle : ∀ w ∈ s.ws, w = .idle ∧ s.queue = [] := by
      intro w hw
      obtain ⟨i, hi'⟩ := stuck_worker hs hc hw
      have he := h1.early w hw
      rcases work_none hi' with h | ⟨h, _⟩ | ⟨_, h⟩ | h | ⟨l, h⟩ | ⟨l, k, h⟩
      · exact h
      · rw [h1.locked] at h; cases h
      · rcases h with ⟨_, _, _, rfl⟩ | ⟨_, _, _, rfl⟩ | ⟨_, rfl⟩ <;> exact he.elim
      · subst h; exact he.elim
      · exact absurd h ((hnb w hw).1 l)
      · exact absurd h ((hnb w hw).2 l k)
    have hq : s.queue = [] := by
      cases hws : s.ws with
      | nil => have := hi.len; rw [hws] at this; simp at this; omega
      | cons w ws => exact (hidle w (by simp [hws])).2
    have ht : s.toSend = [] := by
      rcases stuck_send hs hc with h | h
      · exact h
      · rw [hq] at h; simp at h
    have hh : s.ws.flatMap W.holds = [] := by
      rw [List.flatMap_eq_nil_iff]; intro w hw; rw [(hidle w hw).1]; rfl
    have hp : sumBy W.pre s.ws = 0 := sumBy_zero.mpr fun w hw => by rw [(hidle w hw).1]; rfl
    have ha := acct_len hi
    have hcount := h1.count
    rw [hq, ht, hh] at ha
    simp at ha
    omega
  · have h2 := hi.ph2 hco
    obtain ⟨p1, p2, p3, p4, p5, p6, p7, ds, k, q1, q2, q3, q4⟩ := h2
    have hb0 : sumBy W.bad s.ws = 0 := sumBy_zero.mpr hbad
    have q4 : k + sumBy W.fin s.ws + sumBy (W.pend env.n) s.ws = env.n := by
      rcases q4 with h | ⟨_, h⟩
      · exact h
      · omega
    by_cases hsend : ∃ w ∈ s.ws, w.hold = 1
    · right
      obtain ⟨w, hw, hh⟩ := hsend
      obtain ⟨i, hi'⟩ := stuck_worker hs hc hw
      have hfull : env.n + 1 ≤ s.queue.length ∧ ((∃ d ds k, w = .sending (d :: ds) k) ∨ ∃ k, w = .sending [] (k + 1)) := by
        rcases work_none hi' with ⟨rfl, _⟩ | ⟨_, ⟨d, rfl⟩ | rfl⟩ | ⟨h, ⟨_, _, _, rfl⟩ | h'⟩ | rfl | ⟨l, rfl⟩ | ⟨l, k, rfl⟩
        · cases hh
        · cases hh
        · cases hh
        · cases hh
        · exact ⟨h, h'⟩
        · cases hh
        · cases hh
        · cases hh
      obtain ⟨hfull, hw'⟩ := hfull
      obtain ⟨a, b, hab⟩ := List.append_of_mem hw
      have hbusy : w.busy = 1 := by
        rcases hw' with ⟨d, ds, k, rfl⟩ | ⟨k, rfl⟩ <;> rfl
      rw [hab] at p5
      have hal := alone env.n p5 hbusy
      have hother : ∀ x, x ∈ a ∨ x ∈ b → x = .ended := by
        intro x hx
        have hxs : x ∈ s.ws := by rw [hab]; rcases hx with h | h <;> simp [h]
        have hxb : x.busy = 0 := by
          rcases hx with h | h
          · exact sumBy_zero.mp hal.1 x h
          · exact sumBy_zero.mp hal.2.1 x h
        have hl := p4 x hxs
        obtain ⟨j, hj⟩ := stuck_worker hs hc hxs
        rcases work_none hj with ⟨rfl, h⟩ | ⟨_, ⟨d, rfl⟩ | rfl⟩ | ⟨h, ⟨_, _, _, rfl⟩ | ⟨_, _, _, rfl⟩ | ⟨_, rfl⟩⟩ | rfl | ⟨l, h⟩ | ⟨l, k, h⟩
        · rw [h] at hfull; simp at hfull
        · exact hl.elim
        · cases hxb
        · exact hl.elim
        · cases hxb
        · cases hxb
        · rfl
        · exact absurd h ((hnb x hxs).1 l)
        · exact absurd h ((hnb x hxs).2 l k)
      have hlen := hi.len
      rw [hab] at hlen q2 q3 q4
      simp only [List.length_append, List.length_cons] at hlen
      simp only [sumBy_append, sumBy_cons, fin_all (fun x hx => hother x (.inl hx)), fin_all (fun x hx => hother x (.inr hx))] at q2 q3 q4
      have hwf : w.fin = 0 := by rcases hw' with ⟨d, ds, k, rfl⟩ | ⟨k, rfl⟩ <;> rfl
      have hql : s.queue.length = ds.length + k := by rw [q1]; simp
      have h1 : env.n = 1 := by
        rcases Nat.lt_or_ge 1 env.n with h | h
        · have := q3 (by omega)
          rw [this] at hql
          simp at hql
          omega
        · omega
      refine ⟨h1, ?_⟩
      have hk : k = 0 := by
        rcases hw' with ⟨d, ds, j, rfl⟩ | ⟨j, rfl⟩
        · rcases Nat.eq_zero_or_pos k with h | h
          · exact h
          · have := (q2 (by omega)).2
            simp only [W.want] at this
            omega
        · simp only [W.pend] at q4
          omega
      subst hk
      match ds, hql with
      | d :: d' :: r, _ => exact ⟨d, d', r.map .dump, by rw [q1]; simp⟩
      | [], h => simp at h; rw [h] at hfull; simp at hfull
      | [_], h => simp at h; omega
    · exfalso
      have hh0 : sumBy W.hold s.ws = 0 := sumBy_zero.mpr fun w hw => by
        have : w.hold ≠ 1 := fun h => hsend ⟨w, hw, h⟩
        have : w.hold ≤ 1 := by cases w <;> simp [W.hold]
        omega
      have hlk : s.locked = false := by
        cases h : s.locked with
        | false => rfl
        | true => rw [p6.mp h] at hh0; cases hh0
      have hst : ∀ w ∈ s.ws, (w = .idle ∧ s.queue = []) ∨ w = .ended := by
        intro w hw
        have hl := p4 w hw
        have h0 := sumBy_zero.mp hh0 w hw
        obtain ⟨j, hj⟩ := stuck_worker hs hc hw
        rcases work_none hj with h | ⟨h, _⟩ | ⟨h, ⟨_, _, _, rfl⟩ | ⟨_, _, _, rfl⟩ | ⟨_, rfl⟩⟩ | h | ⟨l, h⟩ | ⟨l, k, h⟩
        · exact .inl h
        · rw [hlk] at h; cases h
        · exact hl.elim
        · cases h0
        · cases h0
        · exact .inr h
        · exact absurd h ((hnb w hw).1 l)
        · exact absurd h ((hnb w hw).2 l k)
      have hpend : sumBy (W.pend env.n) s.ws = 0 := sumBy_zero.mpr fun w hw => by
        rcases hst w hw with ⟨rfl, _⟩ | rfl <;> rfl
      have hend : ∀ w ∈ s.ws, w = .ended := by
        by_cases hex : ∃ w ∈ s.ws, w = .idle
        · obtain ⟨w, hw, rfl⟩ := hex
          have hq : s.queue = [] := by
            rcases hst _ hw with ⟨_, h⟩ | h
            · exact h
            · cases h
          have hk : k = 0 := by
            have := congrArg List.length q1
            rw [hq] at this; simp at this; omega
          have hfn : sumBy W.fin s.ws = s.ws.length := by rw [hi.len]; omega
          exfalso
          have : ∀ l : List W, (∃ w ∈ l, w = W.idle) → sumBy W.fin l < l.length := by
            intro l
            induction l with
            | nil => simp
            | cons x l ih =>
              rintro ⟨w, hw, rfl⟩
              have hle : sumBy W.fin l ≤ l.length := by
                clear ih hw
                induction l with
                | nil => simp
                | cons y l ih => cases y <;> simp [W.fin] <;> omega
              rcases List.mem_cons.mp hw with rfl | hw
              · simp [W.fin]; omega
              · have := ih ⟨_, hw, rfl⟩
                cases x <;> simp [W.fin] <;> omega
          have := this s.ws ⟨_, hw, rfl⟩
          omega
        · intro w hw
          rcases hst w hw with ⟨rfl, _⟩ | h
          · exact absurd ⟨_, hw, rfl⟩ hex
          · exact h
      have hj : s.joined = env.n := by
        rcases Nat.lt_or_ge s.joined env.n with h | h
        · have hlt : s.joined < s.ws.length := by rw [hi.len]; exact h
          have := stuck_join hs hc p1 (List.getElem?_eq_getElem hlt)
          rw [hend _ (List.getElem_mem hlt)] at this
          exact absurd trivial this
        · exact Nat.le_antisymm (joined_le hi) h
      exact hr ⟨hc, p1, hj⟩

end Threads
end DumpSyms
