import Verif.Proof.ThreadsGood
import Verif.Props.Merge
/-!
# C48–C53: dumping several files
-/
namespace DumpSyms
namespace Threads

/-- **C48.** Before a module is handed to the writer, or sent to be, and before a worker is told to stop, every input has been
parsed and merged: it is one of the inputs of a module made by parsing and merging. -/
theorem C48_all_merged_first (env : Env) (ho : env.Ok) (s : State) (h : Reachable env s) (hs : s.Started) (f : Nat) (hf : f < env.files) :
    ∃ d, s.Module d ∧ f ∈ d.src ∧ Made env d.src d.info ∧ HasId env f d.info.debugId := by
  have hi := reach_inv ho h
  have := (started_perm hi hs).mem_iff.mpr (List.mem_range.mpr hf)
  obtain ⟨d, hd, hfd⟩ := List.mem_flatMap.mp this
  have hm := hi.made d hd
  exact ⟨d, mem_out.mp hd, hfd, hm, hm.hasId f hfd⟩

/-- **C49.** In any run each debug id is handed to the writer at most once, and what is handed over for it is made by merging exactly
the inputs with that debug id, each of them once. -/
theorem C49_once (env : Env) (ho : env.Ok) (s : State) (h : Reachable env s) :
    (s.log.map fun d => d.info.debugId).Nodup ∧
    ∀ d ∈ s.log, Made env d.src d.info ∧ d.src.Nodup ∧ ∀ f, f ∈ d.src ↔ f < env.files ∧ HasId env f d.info.debugId := by
  have hi := reach_inv ho h
  have hlog : ∀ {d}, d ∈ s.log → d ∈ s.out := fun hd => mem_out.mpr (.inr (.inr (.inr hd)))
  constructor
  · have := ids_nodup hi
    simp only [State.out, List.map_append] at this
    exact (List.nodup_append.mp this).2.1
  · intro d hd
    have hm := hi.made d (hlog hd)
    refine ⟨hm, src_nodup hi (hlog hd), fun f => ⟨fun hf => ?_, fun ⟨hf, hid⟩ => ?_⟩⟩
    · exact ⟨merged_lt hi (src_merged hi (hlog hd) hf), hm.hasId f hf⟩
    · obtain ⟨e, he, hfe, _, o, ho1, ho2⟩ := C48_all_merged_first env ho s h (.inl (List.ne_nil_of_mem hd)) f hf
      obtain ⟨o', ho3, ho4⟩ := hid
      rw [ho1] at ho3; cases ho3
      have : e = d := same_of_id hi (mem_out.mpr he) (hlog hd) (ho2.symm.trans ho4)
      rw [← this]; exact hfe

/-- Without workers nothing is ever merged. -/
theorem no_workers {env : Env} (ho : env.Ok) (hn : env.n = 0) {s : State} (h : Reachable env s) : s.merged = [] := by
  induction h with
  | init => rfl
  | @step s s' a hr ha ih =>
    have hl := (reach_inv ho hr).len
    rw [hn] at hl
    have := List.length_eq_zero_iff.mp hl
    cases (act_step ha).2 <;> first | exact ih | (simp_all; done)

/-- When a run over other than one input has returned and all workers ended normally, there were workers. -/
theorem ended_workers {env : Env} (ho : env.Ok) (hf : env.files ≠ 1) {s : State} (h : Reachable env s) (ht : s.toSend = [])
    (hend : ∀ w ∈ s.ws, w = .ended) (hpos : 0 < env.files) : .ended ∈ s.ws := by
  have hi := reach_inv ho h
  cases hws : s.ws with
  | cons w ws => have := hend w (by simp [hws]); subst this; simp
  | nil =>
    exfalso
    have hn : env.n = 0 := by have := hi.len; rw [hws] at this; simpa using this.symm
    have hcap := hi.cap
    have hlen := acct_len hi
    have hm := no_workers ho hn h
    have hq : (s.queue.flatMap Msg.inputs).length ≤ s.queue.length := by
      generalize s.queue = q
      induction q with
      | nil => simp
      | cons m q ih => cases m <;> simp only [List.flatMap_cons, Msg.inputs, List.length_append, List.length_cons, List.length_nil] <;> omega
    rw [ht, hws, hm] at hlen
    simp only [List.length_nil, List.flatMap_nil] at hlen
    omega

/-- With two or more inputs, all of which parse and whose writes succeed, a run that returns had workers and all of them ended. -/
theorem returned_ended {env : Env} (ho : env.Ok) (hf : env.files ≠ 1) (hp : ∀ f, f < env.files → ∃ o, env.parse f = .ok o)
    (hst : ∀ l o, MadeOnce env l o → env.store o = .ok ()) {s : State} (h : Reachable env s) (hr : s.Returned env) :
    (∀ w ∈ s.ws, w = .ended) ∧ (0 < env.files → .ended ∈ s.ws) := by
  have hi := reach_inv ho h
  obtain ⟨hc, ht, hj⟩ := hr
  have hend : ∀ w ∈ s.ws, w = .ended := by
    intro w hw
    have hd := mem_of_joined hi hj hw
    have hnf := reach_noFail ho (fun f hf m hm => by obtain ⟨o, h1⟩ := hp f hf; rw [h1] at hm; cases hm)
      (fun l o h1 m hm => by rw [hst l o h1] at hm; cases hm) h w hw
    cases w with
    | ended => rfl
    | failed l => exact absurd rfl (hnf l)
    | _ => exact hd.elim
  exact ⟨hend, ended_workers ho hf h ht hend⟩

/-- When all workers ended normally, every debug id among the inputs was handed to the writer exactly once. -/
theorem ended_complete {env : Env} (ho : env.Ok) {s : State} (h : Reachable env s) (hall : ∀ w ∈ s.ws, w = .ended) (hend : .ended ∈ s.ws)
    {f : Nat} (hlt : f < env.files) {k : Str} (hk : HasId env f k) : (s.log.map fun d => d.info.debugId).count k = 1 := by
  have hi := reach_inv ho h
  obtain ⟨d, hd, hfd, hmade, o, ho1, ho2⟩ := C48_all_merged_first env ho s h (.inr (.inr (.inr (.inr hend)))) f hlt
  obtain ⟨o', ho3, ho4⟩ := hk
  rw [ho1] at ho3; cases ho3
  have hco : s.coordinator ≠ none := by
    intro hc; exact (hi.ph1 hc).early _ hend
  obtain ⟨ds, j, q1, q2, q3, _⟩ := (hi.ph2 hco).queue
  have hfin : 0 < sumBy W.fin s.ws := sumBy_pos hend (by simp [W.fin])
  have hin : d ∈ s.log := by
    rcases hd with ⟨k, hd⟩ | hd | ⟨w, hw, hc⟩ | hd
    · rw [(q2 (by omega)).1] at hd; cases hd
    · rw [q1, q3 hfin] at hd
      simp at hd
    · rw [hall w hw] at hc; exact hc.elim
    · exact hd
  have hn := (C49_once env ho s h).1
  have h1 := List.nodup_iff_count.mp hn k
  have h2 : 0 < (s.log.map fun d => d.info.debugId).count k :=
    List.count_pos_iff.mpr (List.mem_map.mpr ⟨d, hin, by rw [← ho2]; exact ho4⟩)
  omega

/-- **C50.** If a run over several inputs, all of which parse and whose writes all succeed, returns, then every debug id among the
inputs was handed to the writer exactly once. -/
theorem C50_complete (env : Env) (ho : env.Ok) (hf : env.files ≠ 1) (hp : ∀ f, f < env.files → ∃ o, env.parse f = .ok o)
    (hst : ∀ l o, MadeOnce env l o → env.store o = .ok ()) (s : State) (h : Reachable env s) (hr : s.Returned env) (f : Nat)
    (hlt : f < env.files) (k : Str) (hk : HasId env f k) : (s.log.map fun d => d.info.debugId).count k = 1 := by
  obtain ⟨hall, hex⟩ := returned_ended ho hf hp hst h hr
  exact ended_complete ho h hall (hex (by omega)) hlt hk

/-- **C51, first part.** No run goes on forever: its number of steps is bounded. -/
theorem C51_finite (env : Env) (ho : env.Ok) (as : List Action) (s : State) (h : run env as (init env) = some s) :
    as.length ≤ (12 + 2 * env.n) * env.files + env.n + 1 := by
  have h1 := run_measure ho (inv_init env) h
  have h2 : measure env (init env) = (12 + 2 * env.n) * env.files + env.n + 1 := by
    simp [measure, init, sumBy_replicate, W.weight]
  omega

/-- If nothing goes wrong, the main thread does not panic. -/
theorem reach_not_crashed {env : Env} (ho : env.Ok) (hsm : env.Smooth) {s : State} (h : Reachable env s) : s.crashed = false := by
  induction h with
  | init => rfl
  | @step s s' a hr ha ih =>
    have hcl := (reach_clean ho hsm hr).1
    obtain ⟨_, hst⟩ := act_step ha
    cases hst with
    | crash l k ht hw => have := hcl _ (List.mem_of_getElem? hw); cases this
    | _ => exact ih

/-- **C51, partial.** If every input parses, every write succeeds and no merge panics, then a run over at least one input with at least one worker
stops only after returning, except that it hangs in two cases: the counter was taken below one by two workers that both saw it above one
(which takes two workers), or there is a single worker and two inputs have different debug ids.
Missing from the full claim: those two cases, no workers, and failing inputs; all of them do hang (see the witnesses). -/
theorem C51_terminates_partial (env : Env) (ho : env.Ok) (hsm : env.Smooth) (hf : 0 < env.files) (hn : 0 < env.n) (s : State)
    (h : Reachable env s) (hs : Stuck env s) :
    s.Returned env ∨ (1 < env.n ∧ s.counter = 0) ∨
    (env.n = 1 ∧ ∃ f g k l, f < env.files ∧ g < env.files ∧ HasId env f k ∧ HasId env g l ∧ k ≠ l) := by
  have hi := reach_inv ho h
  obtain ⟨hbad, hpo⟩ := reach_clean ho hsm h
  have hc := reach_not_crashed ho hsm h
  by_cases hr : s.Returned env
  · exact .inl hr
  · right
    rcases stuck_cause hi hn hs hc hbad hr with h0 | ⟨h1, d, d', q, hq⟩
    · left
      refine ⟨?_, h0⟩
      rcases Nat.lt_or_ge 1 env.n with h1 | h1
      · exact h1
      · have := (reach_single ho (by omega) hf h).1; omega
    · right
      refine ⟨h1, ?_⟩
      have m1 : d ∈ s.out := mem_out.mpr (.inr (.inl (by simp [hq])))
      have m2 : d' ∈ s.out := mem_out.mpr (.inr (.inl (by simp [hq])))
      have hne : d.info.debugId ≠ d'.info.debugId := by
        have hnd := ids_nodup hi
        simp only [State.out, hq, List.flatMap_cons, Msg.items, List.cons_append, List.nil_append, List.map_append, List.map_cons] at hnd
        have := (List.nodup_append.mp (List.nodup_append.mp (List.nodup_append.mp hnd).1).1).2.1
        intro he
        rw [List.nodup_cons] at this
        exact this.1 (by simp [he])
      have get : ∀ {e : Item}, e ∈ s.out → ∃ f, f < env.files ∧ HasId env f e.info.debugId := by
        intro e he
        have hm := hi.made e he
        have : ∃ f, f ∈ e.src := by
          generalize e.src = l at hm
          cases hm with
          | one f => exact ⟨f, by simp⟩
          | more f => exact ⟨f, by simp⟩
        obtain ⟨f, hf⟩ := this
        exact ⟨f, merged_lt hi (src_merged hi he hf), hm.hasId f hf⟩
      obtain ⟨f, f1, f2⟩ := get m1
      obtain ⟨g, g1, g2⟩ := get m2
      exact ⟨f, g, _, _, f1, g1, f2, g2, hne⟩

/-- **C52, partial.** A run does not return after a worker panicked. -/
theorem C52_panic_partial (env : Env) (ho : env.Ok) (s : State) (h : Reachable env s) (hr : s.Returned env) (l k : List Nat) :
    .panicked l k ∉ s.ws := by
  intro hw
  exact mem_of_joined (reach_inv ho h) hr.2.2 hw

/-- **C52, partial.** If some input does not parse, nothing at all is handed to the writer. -/
theorem C52_nothing_written_partial (env : Env) (ho : env.Ok) (s : State) (h : Reachable env s) (f : Nat) (hf : f < env.files)
    (hp : ∀ o, env.parse f ≠ .ok o) : s.log = [] := by
  refine Decidable.byContradiction fun hl => ?_
  obtain ⟨d, _, _, _, o, ho, _⟩ := C48_all_merged_first env ho s h (.inl hl) f hf
  exact hp o ho

/-- **C53.** In a run, a merge is never refused because of the debug ids: a worker that is about to merge finds only objects with the
debug id of its own, and no worker is ever seen on the way out of a refused merge. -/
theorem C53_no_mismatch (env : Env) (ho : env.Ok) (s : State) (h : Reachable env s) :
    (∀ d prev, .merging d ∈ s.ws → s.table.lookup d.info.debugId = some prev →
      prev.info.debugId = d.info.debugId ∧ ∀ order m, ObjectInfo.merge order d.info prev.info ≠ .err m) ∧
    ∀ l l' k, .aborting l l' k ∉ s.ws := by
  have hi := reach_inv ho h
  refine ⟨fun d prev _ hl => ?_, fun l l' k hw => hi.sane _ hw⟩
  have hk := hi.key _ (lookup_mem hl)
  exact ⟨hk.symm, fun order m hm => merge_err hm hk⟩

/-! ## Dumped objects -/

theorem sumBy_sub {g : Nat → Nat} {l m : List Nat} (hn : l.Nodup) (h : ∀ x ∈ l, x ∈ m) : sumBy g l ≤ sumBy g m := by
  induction l generalizing m with
  | nil => simp
  | cons x l ih =>
    rw [List.nodup_cons] at hn
    have hp := List.perm_cons_erase (h x (by simp))
    rw [sumBy_perm g hp]
    have := ih hn.2 (m := m.erase x) fun y hy =>
      (List.mem_erase_of_ne (fun e => hn.1 (by rw [← e]; exact hy))).mpr (h y (by simp [hy]))
    simp; omega

/-- Number of FILE and INLINE_ORIGIN records of an input. -/
def fileCount (env : Env) (f : Nat) : Nat :=
  match env.parse f with
  | .ok o => o.files.getMapping.length
  | _ => 0
def originCount (env : Env) (f : Nat) : Nat :=
  match env.parse f with
  | .ok o => o.inlineOrigins.length
  | _ => 0

theorem Made.tree {env : Env} (hh : ∀ l, IterOrder (env.hash l)) (hd : ∀ f o, env.parse f = .ok o → Dumped o) {l : List Nat} {p : ObjectInfo}
    (h : Made env l p) : ∃ t : MTree, t.eval = .ok p ∧ t.OrdersOk ∧ (∀ o ∈ t.leaves, Dumped o) ∧ (∀ o ∈ t.leaves, o.debugId = p.debugId) ∧
      t.fileCount = sumBy (fileCount env) l ∧ t.originCount = sumBy (originCount env) l := by
  induction h with
  | one f o ho =>
    refine ⟨.leaf o, rfl, trivial, ?_, ?_, ?_, ?_⟩
    · intro x hx; simp [MTree.leaves] at hx; subst hx; exact hd f x ho
    · intro x hx; simp [MTree.leaves] at hx; rw [hx]
    · simp [MTree.fileCount, MTree.leaves, fileCount, ho]
    · simp [MTree.originCount, MTree.leaves, originCount, ho]
  | more f l o p c ho _ hm ih =>
    obtain ⟨t, t1, t2, t3, t4, t5, t6⟩ := ih
    obtain ⟨m1, m2⟩ := merge_ok hm
    refine ⟨.node (env.hash (f :: l)) (.leaf o) t, ?_, ⟨hh _, trivial, t2⟩, ?_, ?_, ?_, ?_⟩
    · simp [MTree.eval, t1, hm]
    · intro x hx
      simp only [MTree.leaves, List.cons_append, List.nil_append, List.mem_cons] at hx
      rcases hx with rfl | hx
      · exact hd f x ho
      · exact t3 x hx
    · intro x hx
      simp only [MTree.leaves, List.cons_append, List.nil_append, List.mem_cons] at hx
      rcases hx with rfl | hx
      · exact m2.symm
      · rw [t4 x hx, m2, m1]
    · rw [sumBy_cons, ← t5]; simp [MTree.fileCount, MTree.leaves, fileCount, ho]
    · rw [sumBy_cons, ← t6]; simp [MTree.originCount, MTree.leaves, originCount, ho]

/-- When the inputs are dumps of acceptable object files with at most 2^32 FILE and fewer than 2^32 INLINE_ORIGIN records in total, no merge
of a run panics (used with C51). -/
theorem Env.smooth_of_dumped (env : Env) (hh : ∀ l, IterOrder (env.hash l)) (hp : ∀ f, f < env.files → ∃ o, env.parse f = .ok o)
    (hd : ∀ f o, env.parse f = .ok o → Dumped o) (hst : ∀ l o, MadeOnce env l o → env.store o = .ok ())
    (hf : sumBy (fileCount env) (List.range env.files) ≤ M32) (hor : sumBy (originCount env) (List.range env.files) < M32) : env.Smooth where
  parses := hp
  stores := hst
  merges := by
    intro f l o p hnd hlt ho hm hid
    obtain ⟨t, t1, t2, t3, t4, t5, t6⟩ := hm.tree hh hd
    have s1 : sumBy (fileCount env) (f :: l) ≤ _ := sumBy_sub hnd fun x hx => List.mem_range.mpr (hlt x hx)
    have s2 : sumBy (originCount env) (f :: l) ≤ _ := sumBy_sub hnd fun x hx => List.mem_range.mpr (hlt x hx)
    have e1 : (MTree.leaf o).fileCount = fileCount env f := by simp [MTree.fileCount, MTree.leaves, fileCount, ho]
    have e2 : (MTree.leaf o).originCount = originCount env f := by simp [MTree.originCount, MTree.leaves, originCount, ho]
    rw [sumBy_cons] at s1 s2
    obtain ⟨l', r', h1, h2, _, _, h5, _⟩ := C19_merge_ok_iff (env.hash (f :: l)) (hh _) (.leaf o) t o.debugId p.debugId
      ⟨trivial, by intro x hx; simp [MTree.leaves] at hx; subst hx; exact hd f x ho, by intro x hx; simp [MTree.leaves] at hx; rw [hx],
        by omega, by omega⟩ ⟨t2, t3, t4, by omega, by omega⟩ (by omega) (by omega)
    cases h1
    rw [t1] at h2; cases h2
    obtain ⟨c, hc, _⟩ := h5 hid
    exact ⟨c, hc⟩

end Threads
end DumpSyms
