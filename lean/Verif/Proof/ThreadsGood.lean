import Verif.Proof.ThreadsEnd
/-!
# What the invariants say about modules, failures and the counter
-/
namespace DumpSyms
namespace Threads

theorem mem_wItems {w : W} {d : Item} : d ∈ w.items ↔ w.Carries d := by
  cases w <;> simp [W.items, W.Carries, eq_comm]

theorem mem_mItems {m : Msg} {d : Item} : d ∈ m.items ↔ m = .dump d := by
  cases m <;> simp [Msg.items, eq_comm]

theorem mem_out {s : State} {d : Item} : d ∈ s.out ↔ s.Module d := by
  simp only [State.out, State.Module, List.mem_append, List.mem_map, List.mem_flatMap, mem_wItems, mem_mItems]
  constructor
  · rintro (((⟨⟨k, d'⟩, h, rfl⟩ | ⟨m, h, rfl⟩) | h) | h)
    · exact .inl ⟨k, h⟩
    · exact .inr (.inl h)
    · exact .inr (.inr (.inl h))
    · exact .inr (.inr (.inr h))
  · rintro (⟨k, h⟩ | h | h | h)
    · exact .inl (.inl (.inl ⟨_, h, rfl⟩))
    · exact .inl (.inl (.inr ⟨_, h, rfl⟩))
    · exact .inl (.inr h)
    · exact .inr h

theorem tot_out (g : Item → Nat) (s : State) : tot g s = sumBy g s.out := by
  have h : ∀ {α : Type} (f : α → List Item) (l : List α), sumBy (fun m => sumBy g (f m)) l = sumBy g (l.flatMap f) := by
    intro α f l
    induction l with
    | nil => rfl
    | cons x l ih => simp [ih]
  simp only [tot, State.out, sumBy_append, sumBy_map, h]

theorem idN_count (k : Str) (l : List Item) : sumBy (idN k) l = (l.map fun d => d.info.debugId).count k := by
  induction l with
  | nil => rfl
  | cons d l ih =>
    simp only [sumBy_cons, List.map_cons, List.count_cons, ih, idN, beq_iff_eq]
    omega

theorem srcN_count (x : Nat) (l : List Item) : sumBy (srcN x) l = (l.flatMap Item.src).count x := sumBy_flat _ _ _

theorem ids_nodup {env : Env} {s : State} (hi : Inv env s) : (s.out.map fun d => d.info.debugId).Nodup := by
  rw [List.nodup_iff_count]
  intro k
  rw [← idN_count, ← tot_out]
  exact hi.ids k

theorem nodup_map_inj {α β : Type} {f : α → β} {l : List α} (h : (l.map f).Nodup) {x y : α} (hx : x ∈ l) (hy : y ∈ l) (hf : f x = f y) :
    x = y := by
  induction l with
  | nil => cases hx
  | cons z l ih =>
    rw [List.map_cons, List.nodup_cons] at h
    rcases List.mem_cons.mp hx with ex | hx
    · rcases List.mem_cons.mp hy with ey | hy
      · rw [ex, ey]
      · exact absurd (List.mem_map.mpr ⟨y, hy, by rw [← hf, ex]⟩) h.1
    · rcases List.mem_cons.mp hy with ey | hy
      · exact absurd (List.mem_map.mpr ⟨x, hx, by rw [hf, ey]⟩) h.1
      · exact ih h.2 hx hy

theorem carried {s : State} {a b : List W} {w : W} (hw : s.ws = a ++ w :: b) {d : Item} (h : w.Carries d) : d ∈ s.out :=
  mem_out.mpr (.inr (.inr (.inl ⟨w, by rw [hw]; exact List.mem_append_right _ (List.mem_cons_self ..), h⟩)))

theorem same_of_id {env : Env} {s : State} (hi : Inv env s) {d e : Item} (hd : d ∈ s.out) (he : e ∈ s.out)
    (h : d.info.debugId = e.info.debugId) : d = e := by
  exact nodup_map_inj (ids_nodup hi) hd he h

/-- Once the coordinator is chosen and no module is lost, every input is in exactly one module. -/
theorem chosen_perm {env : Env} {s : State} (hi : Inv env s) (hco : s.coordinator ≠ none) (hlost : ∀ w ∈ s.ws, w.lost = []) :
    (s.out.flatMap Item.src).Perm (List.range env.files) := by
  refine List.Perm.trans ?_ (merged_perm hi (hi.ph2 hco).all)
  rw [List.perm_iff_count]
  intro x
  have h1 : tot (srcN x) s + sumBy (fun w => (W.lost w).count x) s.ws = s.merged.count x := hi.srcs x
  have h2 : sumBy (fun w => (W.lost w).count x) s.ws = 0 := sumBy_zero.mpr fun w hw => by rw [hlost w hw]; rfl
  rw [← srcN_count, ← tot_out]
  omega

/-- Once something was sent, written or stopped, every input is in exactly one module. -/
theorem started_perm {env : Env} {s : State} (hi : Inv env s) (h : s.Started) :
    (s.out.flatMap Item.src).Perm (List.range env.files) := by
  have hco : s.coordinator ≠ none := by
    intro hc
    have h1 := hi.ph1 hc
    rcases h with h | ⟨d, h⟩ | ⟨d, w, hw, h⟩ | h | h
    · exact h h1.log
    · obtain ⟨f, hf⟩ := h1.gets _ h; cases hf
    · have := h1.early w hw
      cases w <;> first | exact h | exact this
    · obtain ⟨f, hf⟩ := h1.gets _ h; cases hf
    · exact h1.early _ h
  have hlost : ∀ w ∈ s.ws, w.lost = [] := by
    intro w hw
    refine Decidable.byContradiction fun hl => ?_
    obtain ⟨_, a2, a3, a4⟩ := hi.lost ⟨w, hw, hl⟩
    rcases h with h | ⟨d, h⟩ | ⟨d, w, hw, h⟩ | h | h
    · exact h a4
    · obtain ⟨f, hf⟩ := a3 _ h; cases hf
    · have := a2 w hw
      cases w <;> first | exact h | exact this
    · obtain ⟨f, hf⟩ := a3 _ h; cases hf
    · exact a2 _ h
  exact chosen_perm hi hco hlost

theorem mem_holds {env : Env} {s : State} (hi : Inv env s) {w : W} (hw : w ∈ s.ws) {f : Nat} (hf : f ∈ w.holds) :
    f < env.files ∧ f ∉ s.merged := by
  have hp := acct_perm hi
  have hn := hp.nodup_iff.mpr List.nodup_range
  have hm : f ∈ s.ws.flatMap W.holds := List.mem_flatMap.mpr ⟨w, hw, hf⟩
  refine ⟨List.mem_range.mp (hp.mem_iff.mp (by simp only [List.mem_append]; exact .inl (.inr hm))), ?_⟩
  have := (List.nodup_append.mp hn).2.2
  intro h
  exact this f (by simp only [List.mem_append]; exact .inr hm) f h rfl

theorem src_merged {env : Env} {s : State} (hi : Inv env s) {d : Item} (hd : d ∈ s.out) {f : Nat} (hf : f ∈ d.src) : f ∈ s.merged := by
  have h1 : tot (srcN f) s + sumBy (fun w => (W.lost w).count f) s.ws = s.merged.count f := hi.srcs f
  rw [tot_out] at h1
  have h2 : 0 < sumBy (srcN f) s.out := sumBy_pos hd (List.count_pos_iff.mpr hf)
  exact List.count_pos_iff.mp (by omega)

theorem merged_nodup {env : Env} {s : State} (hi : Inv env s) : s.merged.Nodup := by
  have hp := acct_perm hi
  have hn := hp.nodup_iff.mpr List.nodup_range
  exact (List.nodup_append.mp hn).2.1

theorem merged_lt {env : Env} {s : State} (hi : Inv env s) {f : Nat} (h : f ∈ s.merged) : f < env.files :=
  List.mem_range.mp ((acct_perm hi).mem_iff.mp (by simp only [List.mem_append]; exact .inr h))

theorem src_nodup {env : Env} {s : State} (hi : Inv env s) {d : Item} (hd : d ∈ s.out) : d.src.Nodup := by
  rw [List.nodup_iff_count]
  intro x
  have h1 : tot (srcN x) s + sumBy (fun w => (W.lost w).count x) s.ws = s.merged.count x := hi.srcs x
  rw [tot_out] at h1
  have h2 : srcN x d ≤ sumBy (srcN x) s.out := by
    obtain ⟨a, b, h⟩ := List.append_of_mem hd
    rw [h]; simp; omega
  have h3 := List.nodup_iff_count.mp (merged_nodup hi) x
  unfold srcN at h1 h2
  omega

/-- No worker has failed or panicked, and the results are not poisoned. -/
def Clean (s : State) : Prop := (∀ w ∈ s.ws, w.bad = 0) ∧ s.poisoned = false

theorem madeOnce {env : Env} {s : State} (hi : Inv env s) {d : Item} (hd : d ∈ s.out) : MadeOnce env d.src d.info :=
  ⟨src_nodup hi hd, fun _ hf => merged_lt hi (src_merged hi hd hf), hi.made d hd⟩

theorem clean_step {env : Env} (hsm : env.Smooth) {s s' : State} (hi : Inv env s) (hc : Clean s) (h : Step env s s') : Clean s' := by
  obtain ⟨c1, c2⟩ := hc
  cases h with
  | send | join | crash => exact ⟨c1, c2⟩
  | parseErr a b f m hw hp =>
    obtain ⟨o, ho⟩ := hsm.parses f (mem_holds hi (w := .parsing f) (by simp [hw]) (by simp [W.holds])).1
    rw [ho] at hp; cases hp
  | parsePanic a b f hw hp =>
    obtain ⟨o, ho⟩ := hsm.parses f (mem_holds hi (w := .parsing f) (by simp [hw]) (by simp [W.holds])).1
    rw [ho] at hp; cases hp
  | mergePoisoned a b d hw _ hp => rw [c2] at hp; cases hp
  | mergeErr a b d prev m hw _ _ hl hm => exact (no_mergeErr hi.key hl hm).elim
  | mergePanic a b d prev hw _ _ hl hm =>
    obtain ⟨f, o, rfl, hpo⟩ := hi.sane (.merging d) (by simp [hw])
    have hprev : prev ∈ s.out := mem_out.mpr (.inl ⟨_, lookup_mem hl⟩)
    obtain ⟨hf1, hf2⟩ := mem_holds hi (w := .merging { src := [f], info := o }) (by simp [hw]) (f := f) (by simp [W.holds])
    obtain ⟨c, hc⟩ := hsm.merges f prev.src o prev.info
      (List.nodup_cons.mpr ⟨fun h => hf2 (src_merged hi hprev h), src_nodup hi hprev⟩)
      (fun g hg => by
        rcases List.mem_cons.mp hg with rfl | hg
        · exact hf1
        · exact merged_lt hi (src_merged hi hprev hg))
      hpo (hi.made prev hprev) (hi.key _ (lookup_mem hl))
    simp only [List.cons_append, List.nil_append] at hm
    rw [hc] at hm; cases hm
  | abortSend a b l l' k hw => exact (hi.sane (.aborting l l' (k + 1)) (by simp [hw])).elim
  | abortEnd a b l l' hw => exact (hi.sane (.aborting l l' 0) (by simp [hw])).elim
  | coordPoisoned a b hw _ hp => rw [c2] at hp; cases hp
  | storeErr a b d m hw hs =>
    have := hsm.stores _ _ (madeOnce hi (carried hw rfl))
    rw [this] at hs; cases hs
  | storePanic a b d hw hs =>
    have := hsm.stores _ _ (madeOnce hi (carried hw rfl))
    rw [this] at hs; cases hs
  | dumpErr a b d m hw hs =>
    have := hsm.stores _ _ (madeOnce hi (carried hw rfl))
    rw [this] at hs; cases hs
  | dumpPanic a b d hw hs =>
    have := hsm.stores _ _ (madeOnce hi (carried hw rfl))
    rw [this] at hs; cases hs
  | _ =>
    rw [‹s.ws = _ ++ _ :: _›] at c1
    exact ⟨mem_mid c1 rfl, c2⟩

/-- No worker has returned an error. -/
theorem noFail_step {env : Env} (hp : ∀ f, f < env.files → ∀ m, env.parse f ≠ .err m) (hst : ∀ l o, MadeOnce env l o → ∀ m, env.store o ≠ .err m)
    {s s' : State} (hi : Inv env s) (hc : ∀ w ∈ s.ws, ∀ l, w ≠ W.failed l) (h : Step env s s') : ∀ w ∈ s'.ws, ∀ l, w ≠ W.failed l := by
  cases h with
  | send | join | crash => exact hc
  | parseErr a b f m hw hpe =>
    exact absurd hpe (hp f (mem_holds hi (w := .parsing f) (by simp [hw]) (by simp [W.holds])).1 m)
  | mergeErr a b d prev m hw _ _ hl hm => exact (no_mergeErr hi.key hl hm).elim
  | abortEnd a b l l' hw => exact (hi.sane (.aborting l l' 0) (by simp [hw])).elim
  | storeErr a b d m hw hs =>
    exact absurd hs (hst _ _ (madeOnce hi (carried hw rfl)) m)
  | dumpErr a b d m hw hs =>
    exact absurd hs (hst _ _ (madeOnce hi (carried hw rfl)) m)
  | _ =>
    rw [‹s.ws = _ ++ _ :: _›] at hc
    exact mem_mid (P := fun w => ∀ l, w ≠ W.failed l) hc (fun l h => by cases h)

theorem reach_clean {env : Env} (ho : env.Ok) (hsm : env.Smooth) {s : State} (h : Reachable env s) : Clean s := by
  induction h with
  | init => exact ⟨mem_rep rfl, rfl⟩
  | step a hr ha ih => exact clean_step hsm (reach_inv ho hr) ih (act_step ha).2

theorem reach_noFail {env : Env} (ho : env.Ok) (hp : ∀ f, f < env.files → ∀ m, env.parse f ≠ .err m)
    (hst : ∀ l o, MadeOnce env l o → ∀ m, env.store o ≠ .err m) {s : State} (h : Reachable env s) : ∀ w ∈ s.ws, ∀ l, w ≠ W.failed l := by
  induction h with
  | init => exact mem_rep (P := fun w => ∀ l, w ≠ W.failed l) (fun l h => by cases h)
  | step a hr ha ih => exact noFail_step hp hst (reach_inv ho hr) ih (act_step ha).2

/-- With a single worker the counter does not get lost. -/
def Single (s : State) : Prop := 0 < s.counter ∧ (.decr ∈ s.ws → 1 < s.counter)

theorem one_ws {a b : List W} {w : W} (h : (a ++ w :: b).length = 1) : a = [] ∧ b = [] := by
  simp at h; exact ⟨List.length_eq_zero_iff.mp (by omega), List.length_eq_zero_iff.mp (by omega)⟩

theorem single_step {env : Env} (h1 : env.n = 1) {s s' : State} (hi : Inv env s) (hc : Single s) (h : Step env s s') : Single s' := by
  obtain ⟨c1, c2⟩ := hc
  have hl := hi.len
  rw [h1] at hl
  cases h with
  | send | join | crash => exact ⟨c1, c2⟩
  | checkMore a b hw hne =>
    rw [hw] at hl
    obtain ⟨rfl, rfl⟩ := one_ws hl
    exact ⟨c1, fun _ => by simp only; omega⟩
  | decr a b hw =>
    rw [hw] at hl
    obtain ⟨rfl, rfl⟩ := one_ws hl
    have := c2 (by simp [hw])
    exact ⟨by simp only; omega, fun h => by simp at h⟩
  | _ =>
    rw [‹s.ws = _ ++ _ :: _›] at hl
    obtain ⟨rfl, rfl⟩ := one_ws hl
    exact ⟨c1, fun h => by simp at h⟩

theorem reach_single {env : Env} (ho : env.Ok) (h1 : env.n = 1) (hf : 0 < env.files) {s : State} (h : Reachable env s) : Single s := by
  induction h with
  | init => exact ⟨hf, fun h => by simp [Threads.init] at h⟩
  | step a hr ha ih => exact single_step h1 (reach_inv ho hr) ih (act_step ha).2

theorem reach_run {env : Env} {as : List Action} {s s' : State} (hr : Reachable env s) (h : run env as s = some s') : Reachable env s' := by
  induction as generalizing s with
  | nil => cases h; exact hr
  | cons a as ih =>
    simp only [run] at h
    cases ha : act env a s with
    | none => rw [ha] at h; cases h
    | some s1 => rw [ha] at h; exact ih (.step a hr ha) h

theorem stuck_of {env : Env} {s : State} (h1 : act env .send s = none) (h2 : act env .join s = none)
    (h3 : ∀ i, i < s.ws.length → act env (.worker i) s = none) : Stuck env s := by
  intro a
  cases a with
  | send => exact h1
  | join => exact h2
  | worker i =>
    rcases Nat.lt_or_ge i s.ws.length with h | h
    · exact h3 i h
    · unfold act
      split
      · rfl
      · simp [List.getElem?_eq_none h]

end Threads
end DumpSyms
