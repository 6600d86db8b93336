import Verif.Proof.Threads
import Verif.Proof.MergeIds
import Verif.Spec.Threads
/-!
# Invariants of multi-file runs
-/
namespace DumpSyms
namespace Threads

/-- Sum over a list. -/
def sumBy {α : Type} (f : α → Nat) : List α → Nat
  | [] => 0
  | x :: l => f x + sumBy f l

@[simp] theorem sumBy_nil {α : Type} (f : α → Nat) : sumBy f [] = 0 := rfl
@[simp] theorem sumBy_cons {α : Type} (f : α → Nat) (x : α) (l : List α) : sumBy f (x :: l) = f x + sumBy f l := rfl
@[simp] theorem sumBy_append {α : Type} (f : α → Nat) (a b : List α) : sumBy f (a ++ b) = sumBy f a + sumBy f b := by
  induction a with
  | nil => simp
  | cons x a ih => simp [ih, Nat.add_assoc]

theorem sumBy_perm {α : Type} (f : α → Nat) {a b : List α} (h : a.Perm b) : sumBy f a = sumBy f b := by
  induction h with
  | nil => rfl
  | cons x _ ih => simp [ih]
  | swap x y l => simp; omega
  | trans _ _ h1 h2 => rw [h1, h2]

theorem sumBy_zero {α : Type} {f : α → Nat} {l : List α} : sumBy f l = 0 ↔ ∀ x ∈ l, f x = 0 := by
  induction l with
  | nil => simp
  | cons x l ih => simp [Nat.add_eq_zero_iff, ih]

theorem sumBy_le {α : Type} {f g : α → Nat} {l : List α} (h : ∀ x ∈ l, f x ≤ g x) : sumBy f l ≤ sumBy g l := by
  induction l with
  | nil => simp
  | cons x l ih =>
    have := h x (by simp)
    have := ih fun y hy => h y (by simp [hy])
    simp; omega

theorem sumBy_flat {α β : Type} [BEq β] (g : α → List β) (x : β) (l : List α) :
    sumBy (fun m => (g m).count x) l = (l.flatMap g).count x := by
  induction l with
  | nil => simp
  | cons y l ih => simp [ih]

theorem sumBy_map {α β : Type} (f : β → Nat) (g : α → β) (l : List α) : sumBy f (l.map g) = sumBy (fun x => f (g x)) l := by
  induction l with
  | nil => rfl
  | cons y l ih => simp [ih]

theorem sumBy_replicate {α : Type} (f : α → Nat) (k : Nat) (x : α) : sumBy f (List.replicate k x) = k * f x := by
  induction k with
  | zero => simp
  | succ k ih => simp [List.replicate_succ, ih, Nat.succ_mul]; omega

theorem sumBy_pos {α : Type} {f : α → Nat} {l : List α} {x : α} (hx : x ∈ l) (h : 0 < f x) : 0 < sumBy f l := by
  rcases Nat.eq_zero_or_pos (sumBy f l) with h0 | h0
  · have := sumBy_zero.mp h0 x hx; omega
  · exact h0

/-- Inputs a message stands for, inputs a worker holds, inputs a failed merge lost. -/
def Msg.inputs : Msg → List Nat
  | .get f => [f]
  | _ => []
def W.holds : W → List Nat
  | .parsing f => [f]
  | .merging d => d.src
  | .aborting l _ _ => l
  | .failed l => l
  | .panicked l _ => l
  | _ => []
def W.lost : W → List Nat
  | .aborting _ l _ => l
  | .panicked _ l => l
  | _ => []
/-- Modules in messages and in workers that are writing or sending. -/
def Msg.items : Msg → List Item
  | .dump d => [d]
  | _ => []
def W.items : W → List Item
  | .storing d => [d]
  | .sending ds _ => ds
  | .dumping d => [d]
  | _ => []

def W.pre : W → Nat
  | .check => 1
  | .decr => 1
  | _ => 0
def W.busy : W → Nat
  | .coord => 1
  | .storing _ => 1
  | .sending _ _ => 1
  | _ => 0
def W.hold : W → Nat
  | .storing _ => 1
  | .sending _ _ => 1
  | _ => 0
def W.want : W → Nat
  | .coord => 1
  | .storing _ => 1
  | .sending (_ :: _) _ => 1
  | _ => 0
def W.fin : W → Nat
  | .ended => 1
  | _ => 0
def W.bad : W → Nat
  | .failed _ => 1
  | .panicked _ _ => 1
  | _ => 0
def W.pend (n : Nat) : W → Nat
  | .coord => n
  | .storing _ => n
  | .sending _ k => k
  | _ => 0

def W.early : W → Prop
  | .idle => True
  | .parsing _ => True
  | .merging _ => True
  | .check => True
  | .decr => True
  | .failed _ => True
  | .panicked _ _ => True
  | _ => False
def W.late : W → Prop
  | .idle => True
  | .coord => True
  | .storing _ => True
  | .sending _ _ => True
  | .dumping _ => True
  | .ended => True
  | .failed _ => True
  | .panicked _ _ => True
  | _ => False
def W.quiet : W → Prop
  | .storing _ => False
  | .sending _ _ => False
  | .dumping _ => False
  | .ended => False
  | _ => True
def W.done : W → Prop
  | .ended => True
  | .failed _ => True
  | _ => False

/-- What a single worker is never seen doing. -/
def W.Sane (env : Env) : W → Prop
  | .aborting _ _ _ => False
  | .merging d => ∃ f o, d = { src := [f], info := o } ∧ env.parse f = .ok o
  | _ => True

/-- Every module there is: in the table, in the queue, with a worker, or written. -/
def State.out (s : State) : List Item :=
  s.table.map (·.2) ++ s.queue.flatMap Msg.items ++ s.ws.flatMap W.items ++ s.log

def idN (k : Str) (d : Item) : Nat := if d.info.debugId = k then 1 else 0
def srcN (x : Nat) (d : Item) : Nat := d.src.count x

/-- Before the coordinator is chosen. -/
structure Ph1 (env : Env) (s : State) : Prop where
  count : s.counter + s.merged.length = env.files + sumBy W.pre s.ws
  early : ∀ w ∈ s.ws, w.early
  gets : ∀ m ∈ s.queue, ∃ f, m = .get f
  log : s.log = []
  locked : s.locked = false

/-- From then on. -/
structure Ph2 (env : Env) (s : State) : Prop where
  sent : s.toSend = []
  counter : s.counter = 1
  all : s.merged.length = env.files
  late : ∀ w ∈ s.ws, w.late
  busy : sumBy W.busy s.ws ≤ 1
  locked : s.locked = true ↔ sumBy W.hold s.ws = 1
  taken : 0 < sumBy W.hold s.ws → s.table = []
  queue : ∃ ds k, s.queue = ds.map Msg.dump ++ List.replicate k Msg.stop ∧
    (0 < k + sumBy W.fin s.ws → s.table = [] ∧ sumBy W.want s.ws = 0) ∧
    (0 < sumBy W.fin s.ws → ds = []) ∧
    (k + sumBy W.fin s.ws + sumBy (W.pend env.n) s.ws = env.n ∨
      (k + sumBy W.fin s.ws + sumBy (W.pend env.n) s.ws = 0 ∧ 0 < sumBy W.bad s.ws))

structure Inv (env : Env) (s : State) : Prop where
  len : s.ws.length = env.n
  cap : s.queue.length ≤ env.n + 1
  acct : ∀ x, sumBy (fun m => (Msg.inputs m).count x) s.queue + s.toSend.count x +
    sumBy (fun w => (W.holds w).count x) s.ws + s.merged.count x = (List.range env.files).count x
  sane : ∀ w ∈ s.ws, w.Sane env
  key : ∀ e ∈ s.table, e.1 = e.2.info.debugId
  ids : ∀ k, sumBy (fun e => idN k e.2) s.table + sumBy (fun m => sumBy (idN k) (Msg.items m)) s.queue +
    sumBy (fun w => sumBy (idN k) (W.items w)) s.ws + sumBy (idN k) s.log ≤ 1
  made : ∀ d ∈ s.out, Made env d.src d.info
  srcs : ∀ x, sumBy (fun e => srcN x e.2) s.table + sumBy (fun m => sumBy (srcN x) (Msg.items m)) s.queue +
    sumBy (fun w => sumBy (srcN x) (W.items w)) s.ws + sumBy (srcN x) s.log +
    sumBy (fun w => (W.lost w).count x) s.ws = s.merged.count x
  lost : (∃ w ∈ s.ws, w.lost ≠ []) → s.poisoned = true ∧ (∀ w ∈ s.ws, w.quiet) ∧ (∀ m ∈ s.queue, ∃ f, m = .get f) ∧ s.log = []
  joined : ∀ i, i < s.joined → ∃ w, s.ws[i]? = some w ∧ w.done
  ph1 : s.coordinator = none → Ph1 env s
  ph2 : s.coordinator ≠ none → Ph2 env s

theorem Made.hasId {env : Env} {l : List Nat} {o : ObjectInfo} (h : Made env l o) : ∀ f ∈ l, HasId env f o.debugId := by
  induction h with
  | one f o ho => intro g hg; simp at hg; subst hg; exact ⟨o, ho, rfl⟩
  | more f l o p c ho _ hm ih =>
    obtain ⟨h1, h2⟩ := merge_ok hm
    intro g hg
    rcases List.mem_cons.mp hg with rfl | hg
    · exact ⟨o, ho, h2.symm⟩
    · rw [h2, h1]; exact ih g hg

/-! ## The table -/

theorem tableRemove_none {t : List (Str × Item)} {k : Str} (h : t.lookup k = none) : tableRemove t k = t := by
  unfold tableRemove
  rw [List.filter_eq_self]
  intro e he
  have := List.lookup_eq_none_iff.mp h e he
  simp only [ne_eq, decide_eq_true_eq]
  intro hk; rw [hk] at this; simp at this

theorem table_split {t : List (Str × Item)} {k : Str} {d : Item} (hk : ∀ e ∈ t, e.1 = e.2.info.debugId)
    (h1 : sumBy (fun e => idN k e.2) t ≤ 1) (h : t.lookup k = some d) : t.Perm ((k, d) :: tableRemove t k) := by
  induction t with
  | nil => simp at h
  | cons e t ih =>
    obtain ⟨k', d'⟩ := e
    have hk' := hk _ (List.mem_cons_self ..)
    simp only at hk'
    simp only [sumBy_cons] at h1
    by_cases hkk : k = k'
    · subst hkk
      simp only [List.lookup_cons, beq_self_eq_true, Option.some.injEq] at h
      subst h
      have h2 : sumBy (fun e => idN k e.2) t = 0 := by
        unfold idN at h1 ⊢; rw [if_pos hk'.symm] at h1; omega
      have : tableRemove ((k, d') :: t) k = t := by
        unfold tableRemove
        rw [List.filter_cons_of_neg (by simp), List.filter_eq_self]
        intro e he
        have := sumBy_zero.mp h2 e he
        have hke := hk e (by simp [he])
        simp only [ne_eq, decide_eq_true_eq]
        intro hc
        unfold idN at this
        rw [if_pos (hke.symm.trans hc)] at this
        omega
      rw [this]
    · have hb : (k == k') = false := by simpa using hkk
      simp only [List.lookup_cons, hb] at h
      have := ih (fun e he => hk e (by simp [he])) (by omega) h
      have h3 : tableRemove ((k', d') :: t) k = (k', d') :: tableRemove t k := by
        unfold tableRemove
        rw [List.filter_cons_of_pos (by simpa using Ne.symm hkk)]
      rw [h3]
      exact (this.cons _).trans (List.Perm.swap ..)

theorem tableRemove_idem (t : List (Str × Item)) (k : Str) : tableRemove (tableRemove t k) k = tableRemove t k := by
  unfold tableRemove; simp

theorem mem_tableRemove {t : List (Str × Item)} {k : Str} {e : Str × Item} (h : e ∈ tableRemove t k) : e ∈ t :=
  (List.mem_filter.mp h).1

theorem getElem?_mid {α : Type} {a b : List α} {w w' x : α} {i : Nat} (h : (a ++ w :: b)[i]? = some x) (hx : x ≠ w) :
    (a ++ w' :: b)[i]? = some x := by
  rcases Nat.lt_trichotomy i a.length with hi | hi | hi
  · rw [List.getElem?_append_left hi] at h ⊢; exact h
  · subst hi; simp at h; exact absurd h.symm hx
  · rw [List.getElem?_append_right (by omega)] at h ⊢
    obtain ⟨j, hj⟩ : ∃ j, i - a.length = j + 1 := ⟨i - a.length - 1, by omega⟩
    rw [hj] at h ⊢; simpa using h

theorem len_step {env : Env} {s s' : State} (h : Step env s s') : s'.ws.length = s.ws.length := by
  cases h <;> simp_all

theorem cap_step {env : Env} {s s' : State} (hi : s.queue.length ≤ env.n + 1) (h : Step env s s') : s'.queue.length ≤ env.n + 1 := by
  cases h <;> simp_all <;> omega

theorem acct_step {env : Env} {s s' : State} (hi : Inv env s) (h : Step env s s') (x : Nat) :
    sumBy (fun m => (Msg.inputs m).count x) s'.queue + s'.toSend.count x +
      sumBy (fun w => (W.holds w).count x) s'.ws + s'.merged.count x = (List.range env.files).count x := by
  have hi := hi.acct x
  cases h <;> rename_i hq <;> simp_all [Msg.inputs, W.holds, List.count_cons] <;> omega

theorem mem_mid {α : Type} {a b : List α} {w w' : α} {P : α → Prop} (h : ∀ x ∈ a ++ w :: b, P x) (hw : P w') :
    ∀ x ∈ a ++ w' :: b, P x := by
  intro x hx
  rcases List.mem_append.mp hx with hx | hx
  · exact h x (by simp [hx])
  · rcases List.mem_cons.mp hx with rfl | hx
    · exact hw
    · exact h x (by simp [hx])

theorem lookup_mem {t : List (Str × Item)} {k : Str} {d : Item} (h : t.lookup k = some d) : (k, d) ∈ t := by
  obtain ⟨a, b, h1, _⟩ := List.lookup_eq_some_iff.mp h
  rw [h1]; simp

theorem no_mergeErr {env : Env} {s : State} (hk : ∀ e ∈ s.table, e.1 = e.2.info.debugId) {d prev : Item} {m : Str}
    (h1 : s.table.lookup d.info.debugId = some prev) (h2 : ObjectInfo.merge (env.hash (d.src ++ prev.src)) d.info prev.info = .err m) : False :=
  merge_err h2 (hk _ (lookup_mem h1))

theorem sane_step {env : Env} {s s' : State} (hi : Inv env s) (h : Step env s s') : ∀ w ∈ s'.ws, w.Sane env := by
  have hs := hi.sane
  cases h with
  | send | join | crash => exact hs
  | parseOk a b f o hw hp => rw [hw] at hs; exact mem_mid hs ⟨f, o, rfl, hp⟩
  | mergeErr a b d prev m hw _ _ hl hm => exact (no_mergeErr hi.key hl hm).elim
  | abortSend a b l l' k hw => exact (hs (.aborting l l' (k + 1)) (by simp [hw])).elim
  | _ => rw [‹s.ws = _ ++ _ :: _›] at hs; exact mem_mid hs trivial

theorem key_step {env : Env} {s s' : State} (hi : Inv env s) (h : Step env s s') :
    ∀ e ∈ s'.table, e.1 = e.2.info.debugId := by
  have hk := hi.key
  cases h with
  | mergeNew a b d hw _ _ hl =>
    simp only [tableInsert, tableRemove_none hl]
    intro e he
    rcases List.mem_cons.mp he with rfl | he
    · rfl
    · exact hk e he
  | mergeOk a b d prev c hw _ _ hl hm =>
    simp only [tableInsert]
    intro e he
    rcases List.mem_cons.mp he with rfl | he
    · rfl
    · exact hk e (mem_tableRemove (mem_tableRemove he))
  | mergeErr a b d prev m hw _ _ hl hm => exact (no_mergeErr hi.key hl hm).elim
  | mergePanic a b d prev hw _ _ hl hm => exact fun e he => hk e (mem_tableRemove he)
  | coordOne | coordMany => intro e he; simp at he
  | _ => exact hk

theorem joined_step {env : Env} {s s' : State} (hi : Inv env s) (h : Step env s s') :
    ∀ i, i < s'.joined → ∃ w, s'.ws[i]? = some w ∧ w.done := by
  have hj := hi.joined
  cases h with
  | send | crash => exact hj
  | join w ht hw hd =>
    intro i hi'
    simp only at hi'
    by_cases h : i = s.joined
    · subst h
      refine ⟨w, hw, ?_⟩
      rcases hd with rfl | ⟨l, rfl⟩ <;> trivial
    · exact hj i (by omega)
  | _ =>
    intro i hi'
    obtain ⟨x, hx, hd⟩ := hj i hi'
    rw [‹s.ws = _ ++ _ :: _›] at hx
    exact ⟨x, getElem?_mid hx (by rintro rfl; exact hd), hd⟩

/-- Total of `g` over every module there is. -/
def tot (g : Item → Nat) (s : State) : Nat :=
  sumBy (fun e => g e.2) s.table + sumBy (fun m => sumBy g (Msg.items m)) s.queue +
    sumBy (fun w => sumBy g (W.items w)) s.ws + sumBy g s.log

theorem order_items {env : Env} (ho : env.Ok) (g : Item → Nat) (t : List (Str × Item)) :
    sumBy g ((env.order t).map (·.2)) = sumBy (fun e => g e.2) t := by
  rw [sumBy_map]; exact sumBy_perm _ (ho t)

theorem order_one {env : Env} (ho : env.Ok) {t : List (Str × Item)} {k : Str} {d : Item} (h : env.order t = [(k, d)]) :
    t = [(k, d)] := by
  have := ho t
  rw [h] at this
  exact List.singleton_perm.mp this |>.symm ▸ rfl

/-- Every step but the merges leaves the modules as they are. -/
theorem tot_step {env : Env} (ho : env.Ok) {s s' : State} (hi : Inv env s) (h : Step env s s') (g : Item → Nat) :
    tot g s' = tot g s ∨ (∃ a b d, s.ws = a ++ .merging d :: b ∧ s.poisoned = false ∧
      ((s.table.lookup d.info.debugId = none ∧ tot g s' = tot g s + g d) ∨
       ∃ prev, s.table.lookup d.info.debugId = some prev ∧ ((∃ c, ObjectInfo.merge (env.hash (d.src ++ prev.src)) d.info prev.info = .ok c ∧
        tot g s' + g prev = tot g s + g { src := d.src ++ prev.src, info := c }) ∨ tot g s' + g prev = tot g s))) := by
  have h1 : ∀ {d prev : Item}, s.table.lookup d.info.debugId = some prev →
      sumBy (fun e => g e.2) s.table = g prev + sumBy (fun e => g e.2) (tableRemove s.table d.info.debugId) := by
    intro d prev hl
    have := hi.ids d.info.debugId
    rw [sumBy_perm _ (table_split hi.key (by omega) hl)]
    rfl
  cases h with
  | mergeNew a b d hw _ hp hl =>
    refine .inr ⟨a, b, d, hw, hp, .inl ⟨hl, ?_⟩⟩
    simp only [tot, hw, tableInsert, tableRemove_none hl, sumBy_cons, sumBy_append, W.items, sumBy_nil]
    omega
  | mergeOk a b d prev c hw _ hp hl hm =>
    refine .inr ⟨a, b, d, hw, hp, .inr ⟨prev, hl, .inl ⟨c, hm, ?_⟩⟩⟩
    simp only [tot, hw, tableInsert, h1 hl, (merge_ok hm).2, tableRemove_idem, sumBy_cons, sumBy_append, W.items, sumBy_nil]
    omega
  | mergeErr a b d prev m hw _ _ hl hm => exact (no_mergeErr hi.key hl hm).elim
  | mergePanic a b d prev hw _ hp hl hm =>
    refine .inr ⟨a, b, d, hw, hp, .inr ⟨prev, hl, .inr ?_⟩⟩
    simp only [tot, hw, h1 hl, sumBy_cons, sumBy_append, W.items, sumBy_nil]
    omega
  | coordOne a b k d hw _ _ hr =>
    refine .inl ?_
    simp only [tot, hw, order_one ho hr, sumBy_cons, sumBy_append, W.items, sumBy_nil]
    omega
  | coordMany a b hw _ _ hr =>
    refine .inl ?_
    simp only [tot, hw, sumBy_cons, sumBy_append, W.items, sumBy_nil, order_items ho]
    omega
  | _ => left; simp_all [tot, Msg.items, W.items] <;> omega

theorem Ph1.of_merging {env : Env} {s : State} (hi : Inv env s) {d : Item} (h : .merging d ∈ s.ws) : Ph1 env s := by
  by_cases hc : s.coordinator = none
  · exact hi.ph1 hc
  · exact ((hi.ph2 hc).late _ h).elim

theorem Ph1.noItems {env : Env} {s : State} (h : Ph1 env s) (g : Item → Nat) : tot g s = sumBy (fun e => g e.2) s.table := by
  have h1 : sumBy (fun m => sumBy g (Msg.items m)) s.queue = 0 := sumBy_zero.mpr fun m hm => by
    obtain ⟨f, rfl⟩ := h.gets m hm; rfl
  have h2 : sumBy (fun w => sumBy g (W.items w)) s.ws = 0 := sumBy_zero.mpr fun w hw => by
    have := h.early w hw
    cases w <;> first | rfl | exact this.elim
  simp [tot, h1, h2, h.log]

theorem ids_step {env : Env} (ho : env.Ok) {s s' : State} (hi : Inv env s) (h : Step env s s') (k : Str) :
    tot (idN k) s' ≤ 1 := by
  have h0 : tot (idN k) s ≤ 1 := hi.ids k
  rcases tot_step ho hi h (idN k) with h1 | ⟨a, b, d, hw, _, h1 | ⟨prev, hl, ⟨c, hm, h1⟩ | h1⟩⟩
  · omega
  · obtain ⟨hl, h1⟩ := h1
    have hp : Ph1 env s := .of_merging hi (d := d) (by simp [hw])
    rw [h1]
    rw [hp.noItems] at h0 ⊢
    by_cases hk : d.info.debugId = k
    · have : sumBy (fun e => idN k e.2) s.table = 0 := sumBy_zero.mpr fun e he => by
        have h3 := List.lookup_eq_none_iff.mp hl e he
        have h4 := hi.key e he
        unfold idN
        rw [if_neg]
        intro h5
        rw [h4, h5, hk] at h3
        simp at h3
      rw [this]; unfold idN; split <;> omega
    · have : idN k d = 0 := by unfold idN; rw [if_neg hk]
      omega
  · have : idN k prev = idN k { src := d.src ++ prev.src, info := c } := by
      unfold idN; simp only; rw [(merge_ok hm).2, (merge_ok hm).1]
    omega
  · omega

theorem srcs_step {env : Env} (ho : env.Ok) {s s' : State} (hi : Inv env s) (h : Step env s s') (x : Nat) :
    tot (srcN x) s' + sumBy (fun w => (W.lost w).count x) s'.ws = s'.merged.count x := by
  have h0 : tot (srcN x) s + sumBy (fun w => (W.lost w).count x) s.ws = s.merged.count x := hi.srcs x
  have h1 : ∀ {d prev : Item}, s.table.lookup d.info.debugId = some prev →
      sumBy (fun e => srcN x e.2) s.table = srcN x prev + sumBy (fun e => srcN x e.2) (tableRemove s.table d.info.debugId) := by
    intro d prev hl
    have := hi.ids d.info.debugId
    rw [sumBy_perm _ (table_split hi.key (by omega) hl)]
    rfl
  cases h with
  | mergeNew a b d hw _ hp hl =>
    simp only [tot, hw, tableInsert, tableRemove_none hl, sumBy_cons, sumBy_append, W.items, W.lost, sumBy_nil, List.count_append,
      List.count_nil, srcN] at h0 ⊢
    omega
  | mergeOk a b d prev c hw _ hp hl hm =>
    simp only [tot, h1 hl] at h0
    simp only [tot, hw, tableInsert, (merge_ok hm).2, tableRemove_idem, sumBy_cons, sumBy_append, W.items, W.lost, sumBy_nil,
      List.count_append, List.count_nil, srcN] at h0 ⊢
    omega
  | mergeErr a b d prev m hw _ _ hl hm => exact (no_mergeErr hi.key hl hm).elim
  | mergePanic a b d prev hw _ hp hl hm =>
    simp only [tot, h1 hl] at h0
    simp only [tot, hw, sumBy_cons, sumBy_append, W.items, W.lost, sumBy_nil, List.count_nil, srcN] at h0 ⊢
    omega
  | coordOne a b k d hw _ _ hr =>
    simp only [tot, hw, order_one ho hr, sumBy_cons, sumBy_append, W.items, W.lost, sumBy_nil, List.count_nil] at h0 ⊢
    omega
  | coordMany a b hw _ _ hr =>
    simp only [tot, hw, sumBy_cons, sumBy_append, W.items, W.lost, sumBy_nil, order_items ho, List.count_nil] at h0 ⊢
    omega
  | abortEnd a b l l' hw => exact (hi.sane (.aborting l l' 0) (by simp [hw])).elim
  | _ => simp_all [tot, Msg.items, W.items, W.lost] <;> omega


theorem made_step {env : Env} (ho : env.Ok) {s s' : State} (hi : Inv env s) (h : Step env s s') :
    ∀ d ∈ s'.out, Made env d.src d.info := by
  have hm := hi.made
  cases h with
  | mergeNew a b d hw _ _ hl =>
    obtain ⟨f, o, rfl, hp⟩ := hi.sane (.merging d) (by simp [hw])
    intro x hx
    simp only [State.out, tableInsert, tableRemove_none hl, List.map_cons, List.flatMap_append, List.flatMap_cons, W.items,
      List.cons_append, List.mem_cons, List.mem_append, List.nil_append, hw] at hx hm
    rcases hx with rfl | hx
    · exact .one f o hp
    · exact hm x hx
  | mergeOk a b d prev c hw _ _ hl hc =>
    obtain ⟨f, o, rfl, hp⟩ := hi.sane (.merging d) (by simp [hw])
    have hprev := hm prev (by
      have : prev ∈ s.table.map (·.2) := List.mem_map.mpr ⟨_, lookup_mem hl, rfl⟩
      simp only [State.out, List.append_assoc]; exact List.mem_append_left _ this)
    intro x hx
    simp only [State.out, tableInsert, List.map_cons, List.flatMap_append, List.flatMap_cons, W.items,
      List.cons_append, List.mem_cons, List.mem_append, List.nil_append, hw] at hx hm
    rcases hx with rfl | hx
    · exact .more f prev.src o prev.info c hp hprev hc
    · apply hm x
      rcases hx with ((hx | hx) | hx) | hx
      · obtain ⟨e, he, rfl⟩ := List.mem_map.mp hx
        exact .inl (.inl (.inl (List.mem_map.mpr ⟨e, mem_tableRemove (mem_tableRemove he), rfl⟩)))
      · exact .inl (.inl (.inr hx))
      · exact .inl (.inr hx)
      · exact .inr hx
  | mergeErr a b d prev m hw _ _ hl hm => exact (no_mergeErr hi.key hl hm).elim
  | mergePanic a b d prev hw _ _ hl hc =>
    intro x hx
    apply hm x
    simp only [State.out, List.flatMap_append, List.flatMap_cons, W.items, List.mem_append, hw] at hx ⊢
    rcases hx with ((hx | hx) | hx) | hx
    · obtain ⟨e, he, rfl⟩ := List.mem_map.mp hx
      exact .inl (.inl (.inl (List.mem_map.mpr ⟨e, mem_tableRemove he, rfl⟩)))
    · exact .inl (.inl (.inr hx))
    · exact .inl (.inr hx)
    · exact .inr hx
  | coordOne a b k d hw _ _ hr =>
    intro x hx
    apply hm x
    simp_all [State.out, W.items, order_one ho hr]
    grind
  | coordMany a b hw _ _ hr =>
    have hp : ∀ x, x ∈ (env.order s.table).map (·.2) ↔ x ∈ s.table.map (·.2) := fun x => ((ho s.table).map _).mem_iff
    intro x hx
    apply hm x
    simp only [State.out, List.flatMap_append, List.flatMap_cons, W.items, List.mem_append, hw, hp] at hx ⊢
    grind
  | _ =>
    intro x hx
    apply hm x
    simp_all [State.out, Msg.items, W.items]
    try grind

/-- If a merge was lost, nothing will ever be written. -/
def NoItems (s : State) : Prop :=
  s.poisoned = true ∧ (∀ w ∈ s.ws, w.quiet) ∧ (∀ m ∈ s.queue, ∃ f, m = .get f) ∧ s.log = []

theorem Ph1.none {env : Env} {s : State} (h : Ph1 env s) :
    (∀ w ∈ s.ws, w.quiet) ∧ (∀ m ∈ s.queue, ∃ f, m = .get f) ∧ s.log = [] := by
  refine ⟨fun w hw => ?_, h.gets, h.log⟩
  have := h.early w hw
  cases w <;> first | trivial | exact this.elim

theorem lost_step {env : Env} {s s' : State} (hi : Inv env s) (h : Step env s s') :
    (∃ w ∈ s'.ws, w.lost ≠ []) → NoItems s' := by
  have hl : (∃ w ∈ s.ws, w.lost ≠ []) → NoItems s := hi.lost
  cases h with
  | mergePanic a b d prev hw _ _ _ hc =>
    intro _
    obtain ⟨h1, h2, h3⟩ := (Ph1.of_merging hi (d := d) (by simp [hw])).none
    refine ⟨rfl, ?_, h2, h3⟩
    rw [hw] at h1
    exact mem_mid h1 trivial
  | mergeErr a b d prev m hw _ _ hl hm => exact (no_mergeErr hi.key hl hm).elim
  | abortSend a b l l' k hw => exact (hi.sane (.aborting l l' (k + 1)) (by simp [hw])).elim
  | send f fs h1 h2 =>
    intro h
    obtain ⟨a1, a2, a3, a4⟩ := hl h
    refine ⟨a1, a2, ?_, a4⟩
    intro m hm
    rcases List.mem_append.mp hm with hm | hm
    · exact a3 m hm
    · simp at hm; exact ⟨f, hm⟩
  | join | crash => exact hl
  | recvDump a b d q hw hq =>
    intro ⟨w, hm, hne⟩
    have h1 : NoItems s := hl ⟨w, by simp_all [W.lost]; grind⟩
    obtain ⟨f, hf⟩ := h1.2.2.1 (.dump d) (by simp [hq])
    cases hf
  | recvStop a b q hw hq =>
    intro ⟨w, hm, hne⟩
    have h1 : NoItems s := hl ⟨w, by simp_all [W.lost]; grind⟩
    obtain ⟨f, hf⟩ := h1.2.2.1 .stop (by simp [hq])
    cases hf
  | coordOne a b k d hw _ hp _ =>
    intro ⟨w, hm, hne⟩
    have h1 : NoItems s := hl ⟨w, by simp_all [W.lost]; grind⟩
    have h2 := h1.1
    rw [hp] at h2; cases h2
  | coordMany a b hw _ hp _ =>
    intro ⟨w, hm, hne⟩
    have h1 : NoItems s := hl ⟨w, by simp_all [W.lost]; grind⟩
    have h2 := h1.1
    rw [hp] at h2; cases h2
  | storeOk | storeErr | storePanic | sendDump | sendStop | sendEnd | dumpOk | dumpErr | dumpPanic =>
    intro ⟨w, hm, hne⟩
    have h1 : NoItems s := hl ⟨w, by simp_all [W.lost]; grind⟩
    have h2 := h1.2.1
    rw [‹s.ws = _ ++ _ :: _›] at h2
    exact (h2 _ (List.mem_append_right _ (List.mem_cons_self ..))).elim
  | recvGet a b f q hw hq =>
    intro ⟨w, hm, hne⟩
    obtain ⟨a1, a2, a3, a4⟩ : NoItems s := hl ⟨w, by simp_all [W.lost]; grind⟩
    rw [hw] at a2
    exact ⟨a1, mem_mid a2 trivial, fun m hm => a3 m (by rw [hq]; simp [hm]), a4⟩
  | _ =>
    intro ⟨w, hm, hne⟩
    obtain ⟨a1, a2, a3, a4⟩ : NoItems s := hl ⟨w, by simp_all [W.lost]; grind⟩
    rw [‹s.ws = _ ++ _ :: _›] at a2
    exact ⟨a1, mem_mid a2 trivial, a3, a4⟩

theorem acct_perm {env : Env} {s : State} (hi : Inv env s) :
    (s.queue.flatMap Msg.inputs ++ s.toSend ++ s.ws.flatMap W.holds ++ s.merged).Perm (List.range env.files) := by
  rw [List.perm_iff_count]
  intro x
  rw [← hi.acct x]
  simp only [List.count_append, sumBy_flat]

theorem acct_len {env : Env} {s : State} (hi : Inv env s) :
    (s.queue.flatMap Msg.inputs).length + s.toSend.length + (s.ws.flatMap W.holds).length + s.merged.length = env.files := by
  have := (acct_perm hi).length_eq
  simp only [List.length_append, List.length_range] at this
  exact this

theorem merged_perm {env : Env} {s : State} (hi : Inv env s) (h : s.merged.length = env.files) :
    s.merged.Perm (List.range env.files) := by
  have h1 := acct_len hi
  have h2 := acct_perm hi
  have e1 : s.queue.flatMap Msg.inputs = [] := List.length_eq_zero_iff.mp (by omega)
  have e2 : s.toSend = [] := List.length_eq_zero_iff.mp (by omega)
  have e3 : s.ws.flatMap W.holds = [] := List.length_eq_zero_iff.mp (by omega)
  rw [e1, e2, e3] at h2
  simpa using h2

theorem ph1_step {env : Env} {s s' : State} (hi : Inv env s) (h : Step env s s') (hc : s'.coordinator = none) :
    Ph1 env s' := by
  have hp : s.coordinator = none → Ph1 env s := hi.ph1
  cases h with
  | checkLast => cases hc
  | mergeErr a b d prev m hw _ _ hl hm => exact (no_mergeErr hi.key hl hm).elim
  | send f fs h1 h2 =>
    obtain ⟨p1, p2, p3, p4, p5⟩ := hp hc
    refine ⟨p1, p2, ?_, p4, p5⟩
    intro m hm
    rcases List.mem_append.mp hm with hm | hm
    · exact p3 m hm
    · simp at hm; exact ⟨f, hm⟩
  | join | crash =>
    obtain ⟨p1, p2, p3, p4, p5⟩ := hp hc
    exact ⟨p1, p2, p3, p4, p5⟩
  | recvGet a b f q hw hq =>
    obtain ⟨p1, p2, p3, p4, p5⟩ := hp hc
    rw [hw] at p1 p2
    exact ⟨by simpa [W.pre] using p1, mem_mid p2 trivial, fun m hm => p3 m (by rw [hq]; simp [hm]), p4, p5⟩
  | recvDump a b d q hw hq => obtain ⟨f, hf⟩ := (hp hc).gets (.dump d) (by simp [hq]); cases hf
  | recvStop a b q hw hq => obtain ⟨f, hf⟩ := (hp hc).gets .stop (by simp [hq]); cases hf
  | mergeNew a b d hw _ _ _ =>
    obtain ⟨f, o, rfl, hpo⟩ := hi.sane (.merging d) (by simp [hw])
    obtain ⟨p1, p2, p3, p4, p5⟩ := hp hc
    rw [hw] at p1 p2
    exact ⟨by simp [W.pre] at p1 ⊢; omega, mem_mid p2 trivial, p3, p4, p5⟩
  | mergeOk a b d prev c hw _ _ _ _ =>
    obtain ⟨f, o, rfl, hpo⟩ := hi.sane (.merging d) (by simp [hw])
    obtain ⟨p1, p2, p3, p4, p5⟩ := hp hc
    rw [hw] at p1 p2
    exact ⟨by simp [W.pre] at p1 ⊢; omega, mem_mid p2 trivial, p3, p4, p5⟩
  | decr a b hw =>
    obtain ⟨p1, p2, p3, p4, p5⟩ := hp hc
    have h1 := acct_len hi
    rw [hw] at p1 p2
    exact ⟨by simp [W.pre] at p1 ⊢; omega, mem_mid p2 trivial, p3, p4, p5⟩
  | parseOk | parseErr | parsePanic | mergePoisoned | mergePanic | checkMore =>
    obtain ⟨p1, p2, p3, p4, p5⟩ := hp hc
    rw [‹s.ws = _ ++ _ :: _›] at p1 p2
    exact ⟨by simpa [W.pre] using p1, mem_mid p2 trivial, p3, p4, p5⟩
  | _ =>
    have h := (hp hc).early
    rw [‹s.ws = _ ++ _ :: _›] at h
    exact (h _ (List.mem_append_right _ (List.mem_cons_self ..))).elim

theorem pre_le {s : State} : sumBy W.pre s.ws ≤ s.ws.length := by
  generalize s.ws = l
  induction l with
  | nil => simp
  | cons w l ih => cases w <;> simp [W.pre] <;> omega

theorem sum_sub {f g : W → Nat} {l : List W} (h : ∀ w ∈ l, g w = 0 → f w = 0) (hg : sumBy g l = 0) : sumBy f l = 0 :=
  sumBy_zero.mpr fun w hw => h w hw (sumBy_zero.mp hg w hw)

theorem ph2_start {env : Env} {s : State} (hi : Inv env s) (h1 : Ph1 env s) {a b : List W} (hw : s.ws = a ++ .check :: b)
    (hc : s.counter = 1) : Ph2 env { s with coordinator := some a.length, ws := a ++ .coord :: b } := by
  have hl := acct_len hi
  have h2 := h1.count
  rw [hc, hw] at h2
  simp only [sumBy_append, sumBy_cons, W.pre] at h2
  have e1 : s.queue.flatMap Msg.inputs = [] := List.length_eq_zero_iff.mp (by omega)
  have e2 : s.toSend = [] := List.length_eq_zero_iff.mp (by omega)
  have e3 : s.ws.flatMap W.holds = [] := List.length_eq_zero_iff.mp (by omega)
  have hq : s.queue = [] := by
    cases hq : s.queue with
    | nil => rfl
    | cons m q =>
      obtain ⟨f, rfl⟩ := h1.gets m (by simp [hq])
      rw [hq] at e1; simp [Msg.inputs] at e1
  have hpa : sumBy W.pre a = 0 := by omega
  have hpb : sumBy W.pre b = 0 := by omega
  have hab : ∀ w, w ∈ a ∨ w ∈ b → (w = .idle ∨ (∃ l, w = .failed l) ∨ ∃ l k, w = .panicked l k) := by
    intro w hmem
    have hin : w ∈ s.ws := by rw [hw]; rcases hmem with h | h <;> simp [h]
    have he := h1.early w hin
    have hpre : W.pre w = 0 := by
      rcases hmem with h | h
      · exact sumBy_zero.mp hpa w h
      · exact sumBy_zero.mp hpb w h
    have hhold : w.holds = [] := List.flatMap_eq_nil_iff.mp e3 w hin
    cases w with
    | idle => exact .inl rfl
    | failed l => exact .inr (.inl ⟨l, rfl⟩)
    | panicked l k => exact .inr (.inr ⟨l, k, rfl⟩)
    | parsing f => cases hhold
    | merging d => obtain ⟨f, o, rfl, _⟩ := hi.sane _ hin; cases hhold
    | check => simp [W.pre] at hpre
    | decr => simp [W.pre] at hpre
    | _ => exact he.elim
  have z : ∀ f : W → Nat, f .idle = 0 → (∀ l, f (.failed l) = 0) → (∀ l k, f (.panicked l k) = 0) → sumBy f a = 0 ∧ sumBy f b = 0 := by
    intro f f1 f2 f3
    constructor <;> refine sumBy_zero.mpr fun w hmem => ?_
    · rcases hab w (.inl hmem) with rfl | ⟨l, rfl⟩ | ⟨l, k, rfl⟩ <;> simp [f1, f2, f3]
    · rcases hab w (.inr hmem) with rfl | ⟨l, rfl⟩ | ⟨l, k, rfl⟩ <;> simp [f1, f2, f3]
  have zb := z W.busy rfl (fun _ => rfl) (fun _ _ => rfl)
  have zh := z W.hold rfl (fun _ => rfl) (fun _ _ => rfl)
  have zf := z W.fin rfl (fun _ => rfl) (fun _ _ => rfl)
  have zp := z (W.pend env.n) rfl (fun _ => rfl) (fun _ _ => rfl)
  refine ⟨e2, hc, by simp only; omega, ?_, ?_, ?_, ?_, [], 0, ?_, ?_, ?_, ?_⟩
  · intro w hmem
    rcases List.mem_append.mp hmem with h | h
    · rcases hab w (.inl h) with rfl | ⟨l, rfl⟩ | ⟨l, k, rfl⟩ <;> trivial
    · rcases List.mem_cons.mp h with rfl | h
      · trivial
      · rcases hab w (.inr h) with rfl | ⟨l, rfl⟩ | ⟨l, k, rfl⟩ <;> trivial
  · simp [zb, W.busy]
  · simp [h1.locked, zh, W.hold]
  · simp [zh, W.hold]
  · simp [hq]
  · simp [zf, W.fin]
  · simp
  · left; simp [zf, zp, W.fin, W.pend]


theorem late_mid {s : State} (h : ∀ w ∈ s.ws, w.late) {a b : List W} {w w' : W} (hw : s.ws = a ++ w :: b) (hl : w'.late) :
    ∀ x ∈ a ++ w' :: b, x.late := by
  rw [hw] at h; exact mem_mid h hl

theorem want_le : ∀ w : W, w.want ≤ w.busy := by
  intro w
  match w with
  | .sending [] k => simp [W.want]
  | .sending (_ :: _) k => simp [W.want, W.busy]
  | .coord | .storing _ => exact Nat.le_refl _
  | .idle | .parsing _ | .merging _ | .aborting _ _ _ | .check | .decr | .dumping _ | .ended | .failed _ | .panicked _ _ => exact Nat.le_refl _

theorem hold_le : ∀ w : W, w.hold ≤ w.busy := by
  intro w; cases w <;> simp [W.hold, W.busy]

theorem pend_zero (n : Nat) : ∀ w : W, w.busy = 0 → w.pend n = 0 := by
  intro w; cases w <;> simp [W.pend, W.busy]

/-- Around the busy worker nobody is busy. -/
theorem alone {a b : List W} {w : W} (n : Nat) (h : sumBy W.busy (a ++ w :: b) ≤ 1) (hw : w.busy = 1) :
    sumBy W.busy a = 0 ∧ sumBy W.busy b = 0 ∧ sumBy W.hold a = 0 ∧ sumBy W.hold b = 0 ∧ sumBy W.want a = 0 ∧ sumBy W.want b = 0 ∧
    sumBy (W.pend n) a = 0 ∧ sumBy (W.pend n) b = 0 := by
  simp only [sumBy_append, sumBy_cons, hw] at h
  have ha : sumBy W.busy a = 0 := by omega
  have hb : sumBy W.busy b = 0 := by omega
  have f1 : ∀ w : W, w.busy = 0 → w.hold = 0 := fun w h => by have := hold_le w; omega
  have f2 : ∀ w : W, w.busy = 0 → w.want = 0 := fun w h => by have := want_le w; omega
  exact ⟨ha, hb, sum_sub (fun w _ => f1 w) ha, sum_sub (fun w _ => f1 w) hb, sum_sub (fun w _ => f2 w) ha,
    sum_sub (fun w _ => f2 w) hb, sum_sub (fun w _ => pend_zero n w) ha, sum_sub (fun w _ => pend_zero n w) hb⟩

theorem ph2_step {env : Env} {s s' : State} (hi : Inv env s) (h : Step env s s')
    (hc : s'.coordinator ≠ none) : Ph2 env s' := by
  by_cases hs : s.coordinator = none
  · cases h with
    | checkLast a b hw h1 => exact ph2_start hi (hi.ph1 hs) hw h1
    | _ => exact absurd hs hc
  · obtain ⟨p1, p2, p3, p4, p5, p6, p7, ds, k, q1, q2, q3, q4⟩ := hi.ph2 hs
    cases h with
    | send f fs h1 h2 => rw [p1] at h1; cases h1
    | join | crash => exact ⟨p1, p2, p3, p4, p5, p6, p7, ds, k, q1, q2, q3, q4⟩
    | mergeErr a b d prev m hw _ _ hl hm => exact (no_mergeErr hi.key hl hm).elim
    | recvGet a b f q hw hq =>
      rw [q1] at hq
      cases ds with
      | cons d ds => cases hq
      | nil => cases k with
        | zero => cases hq
        | succ k => cases hq
    | recvDump a b d q hw hq =>
      rw [q1] at hq
      cases ds with
      | nil => cases k <;> cases hq
      | cons d' ds =>
        simp only [List.map_cons, List.cons_append, List.cons.injEq, Msg.dump.injEq] at hq
        obtain ⟨rfl, rfl⟩ := hq
        rw [hw] at p5 p6 p7 q2 q3 q4
        simp only [sumBy_append, sumBy_cons, W.busy, W.hold, W.fin, W.want, W.pend, W.bad] at p5 p6 p7 q2 q3 q4
        refine ⟨p1, p2, p3, late_mid p4 hw trivial, ?_, ?_, ?_, ds, k, rfl, ?_, ?_, ?_⟩ <;>
          simp only [sumBy_append, sumBy_cons, W.busy, W.hold, W.fin, W.want, W.pend, W.bad]
        · exact p5
        · exact p6
        · exact p7
        · exact q2
        · intro h; cases q3 h
        · exact q4
    | recvStop a b q hw hq =>
      rw [q1] at hq
      cases ds with
      | cons d' ds => cases hq
      | nil =>
        cases k with
        | zero => cases hq
        | succ k =>
          simp only [List.map_nil, List.nil_append, List.replicate_succ, List.cons.injEq, true_and] at hq
          subst hq
          rw [hw] at p5 p6 p7 q2 q3 q4
          simp only [sumBy_append, sumBy_cons, W.busy, W.hold, W.fin, W.want, W.pend, W.bad] at p5 p6 p7 q2 q3 q4
          refine ⟨p1, p2, p3, late_mid p4 hw trivial, ?_, ?_, ?_, [], k, rfl, ?_, ?_, ?_⟩ <;>
            simp only [sumBy_append, sumBy_cons, W.busy, W.hold, W.fin, W.want, W.pend, W.bad]
          · exact p5
          · exact p6
          · exact p7
          · intro _; exact q2 (by omega)
          · intro _; trivial
          · omega
    | coordPoisoned a b hw hlk hpo =>
      rw [hw] at p5
      have ha := alone env.n p5 rfl
      rw [hw] at p6 p7 q2 q3 q4
      simp only [sumBy_append, sumBy_cons, W.busy, W.hold, W.fin, W.want, W.pend, W.bad] at p5 p6 p7 q2 q3 q4
      refine ⟨p1, p2, p3, late_mid p4 hw trivial, ?_, ?_, ?_, ds, k, q1, ?_, ?_, ?_⟩ <;>
        simp only [sumBy_append, sumBy_cons, W.busy, W.hold, W.fin, W.want, W.pend, W.bad]
      · omega
      · exact p6
      · exact p7
      · intro h
        have := (q2 h).2
        omega
      · exact q3
      · rcases Nat.eq_zero_or_pos (k + (sumBy W.fin a + (0 + sumBy W.fin b))) with h0 | h0
        · right; omega
        · have := (q2 h0).2; omega
    | coordOne a b k' d hw hlk hpo hr =>
      rw [hw] at p5
      have ha := alone env.n p5 rfl
      rw [hw] at p6 p7 q2 q3 q4
      simp only [sumBy_append, sumBy_cons, W.busy, W.hold, W.fin, W.want, W.pend, W.bad] at p5 p6 p7 q2 q3 q4
      refine ⟨p1, p2, p3, late_mid p4 hw trivial, ?_, ?_, ?_, ds, k, q1, ?_, ?_, ?_⟩ <;>
        simp only [sumBy_append, sumBy_cons, W.busy, W.hold, W.fin, W.want, W.pend, W.bad]
      · exact p5
      · simp only [true_iff]; omega
      · intro _; trivial
      · intro h; exact ⟨trivial, (q2 h).2⟩
      · exact q3
      · exact q4
    | coordMany a b hw hlk hpo hr =>
      rw [hw] at p5
      have ha := alone env.n p5 rfl
      rw [hw] at p6 p7 q2 q3 q4
      simp only [sumBy_append, sumBy_cons, W.busy, W.hold, W.fin, W.pend, W.bad] at p5 p6 p7 q2 q3 q4
      refine ⟨p1, p2, p3, late_mid p4 hw trivial, ?_, ?_, ?_, ds, k, q1, ?_, ?_, ?_⟩ <;>
        simp only [sumBy_append, sumBy_cons, W.busy, W.hold, W.fin, W.pend, W.bad]
      · exact p5
      · simp only [true_iff]; omega
      · intro _; trivial
      · intro h
        have h1 := (q2 h).2
        simp only [W.want] at h1
        omega
      · exact q3
      · exact q4
    | storeOk a b d hw hs =>
      rw [hw] at p5
      have ha := alone env.n p5 rfl
      rw [hw] at p6 p7 q2 q3 q4
      simp only [sumBy_append, sumBy_cons, W.busy, W.hold, W.fin, W.want, W.pend, W.bad] at p5 p6 p7 q2 q3 q4
      refine ⟨p1, p2, p3, late_mid p4 hw trivial, ?_, ?_, ?_, ds, k, q1, ?_, ?_, ?_⟩ <;>
        simp only [sumBy_append, sumBy_cons, W.busy, W.hold, W.fin, W.want, W.pend, W.bad]
      · exact p5
      · exact p6
      · exact p7
      · intro h
        have := (q2 h).2
        omega
      · exact q3
      · exact q4
    | storeErr a b d m hw hs =>
      rw [hw] at p5
      have ha := alone env.n p5 rfl
      rw [hw] at p6 p7 q2 q3 q4
      simp only [sumBy_append, sumBy_cons, W.busy, W.hold, W.fin, W.want, W.pend, W.bad] at p5 p6 p7 q2 q3 q4
      refine ⟨p1, p2, p3, late_mid p4 hw trivial, ?_, ?_, ?_, ds, k, q1, ?_, ?_, ?_⟩ <;>
        simp only [sumBy_append, sumBy_cons, W.busy, W.hold, W.fin, W.want, W.pend, W.bad]
      · omega
      · simp only [Bool.false_eq_true, false_iff]; omega
      · intro h; omega
      · intro h
        have := (q2 h).2
        omega
      · exact q3
      · rcases Nat.eq_zero_or_pos (k + (sumBy W.fin a + (0 + sumBy W.fin b))) with h0 | h0
        · right; omega
        · have := (q2 h0).2; omega
    | storePanic a b d hw hs =>
      rw [hw] at p5
      have ha := alone env.n p5 rfl
      rw [hw] at p6 p7 q2 q3 q4
      simp only [sumBy_append, sumBy_cons, W.busy, W.hold, W.fin, W.want, W.pend, W.bad] at p5 p6 p7 q2 q3 q4
      refine ⟨p1, p2, p3, late_mid p4 hw trivial, ?_, ?_, ?_, ds, k, q1, ?_, ?_, ?_⟩ <;>
        simp only [sumBy_append, sumBy_cons, W.busy, W.hold, W.fin, W.want, W.pend, W.bad]
      · omega
      · simp only [Bool.false_eq_true, false_iff]; omega
      · intro h; omega
      · intro h
        have := (q2 h).2
        omega
      · exact q3
      · rcases Nat.eq_zero_or_pos (k + (sumBy W.fin a + (0 + sumBy W.fin b))) with h0 | h0
        · right; omega
        · have := (q2 h0).2; omega
    | sendDump a b d ds' j hw hr =>
      rw [hw] at p5
      have ha := alone env.n p5 rfl
      rw [hw] at p6 p7 q2 q3 q4
      simp only [sumBy_append, sumBy_cons, W.busy, W.hold, W.fin, W.want, W.pend, W.bad] at p5 p6 p7 q2 q3 q4
      have h0 : k + (sumBy W.fin a + (0 + sumBy W.fin b)) = 0 := by
        rcases Nat.eq_zero_or_pos (k + (sumBy W.fin a + (0 + sumBy W.fin b))) with h0 | h0
        · exact h0
        · have := (q2 h0).2; omega
      have hk : k = 0 := by omega
      subst hk
      refine ⟨p1, p2, p3, late_mid p4 hw trivial, ?_, ?_, ?_, ds ++ [d], 0, by simp [q1], ?_, ?_, ?_⟩ <;>
        simp only [sumBy_append, sumBy_cons, W.busy, W.hold, W.fin, W.pend, W.bad]
      · exact p5
      · exact p6
      · exact p7
      · intro h; omega
      · intro h; omega
      · exact q4
    | sendStop a b j hw hr =>
      rw [hw] at p5
      have ha := alone env.n p5 rfl
      rw [hw] at p6 p7 q2 q3 q4
      simp only [sumBy_append, sumBy_cons, W.busy, W.hold, W.fin, W.want, W.pend, W.bad] at p5 p6 p7 q2 q3 q4
      refine ⟨p1, p2, p3, late_mid p4 hw trivial, ?_, ?_, ?_, ds, k + 1,
        by simp [q1, List.replicate_succ', List.append_assoc], ?_, ?_, ?_⟩ <;>
        simp only [sumBy_append, sumBy_cons, W.busy, W.hold, W.fin, W.want, W.pend, W.bad]
      · exact p5
      · exact p6
      · exact p7
      · intro h; exact ⟨p7 (by omega), by omega⟩
      · exact q3
      · omega
    | sendEnd a b hw =>
      rw [hw] at p5
      have ha := alone env.n p5 rfl
      rw [hw] at p6 p7 q2 q3 q4
      simp only [sumBy_append, sumBy_cons, W.busy, W.hold, W.fin, W.want, W.pend, W.bad] at p5 p6 p7 q2 q3 q4
      refine ⟨p1, p2, p3, late_mid p4 hw trivial, ?_, ?_, ?_, ds, k, q1, ?_, ?_, ?_⟩ <;>
        simp only [sumBy_append, sumBy_cons, W.busy, W.hold, W.fin, W.want, W.pend, W.bad]
      · omega
      · simp only [Bool.false_eq_true, false_iff]; omega
      · intro h; omega
      · exact q2
      · exact q3
      · omega
    | dumpOk | dumpErr | dumpPanic =>
      have hw := ‹s.ws = _ ++ _ :: _›
      rw [hw] at p5 p6 p7 q2 q3 q4
      simp only [sumBy_append, sumBy_cons, W.busy, W.hold, W.fin, W.want, W.pend, W.bad] at p5 p6 p7 q2 q3 q4
      refine ⟨p1, p2, p3, late_mid p4 hw trivial, ?_, ?_, ?_, ds, k, q1, ?_, ?_, ?_⟩ <;>
        simp only [sumBy_append, sumBy_cons, W.busy, W.hold, W.fin, W.want, W.pend, W.bad] <;>
        first | assumption | omega
    | _ =>
      rw [‹s.ws = _ ++ _ :: _›] at p4
      exact (p4 _ (List.mem_append_right _ (List.mem_cons_self ..))).elim

theorem inv_step {env : Env} (ho : env.Ok) {s s' : State} (hi : Inv env s) (h : Step env s s') : Inv env s' where
  len := (len_step h).trans hi.len
  cap := cap_step hi.cap h
  acct := acct_step hi h
  sane := sane_step hi h
  key := key_step hi h
  ids := ids_step ho hi h
  made := made_step ho hi h
  srcs := srcs_step ho hi h
  lost := lost_step hi h
  joined := joined_step hi h
  ph1 := ph1_step hi h
  ph2 := ph2_step hi h

theorem mem_rep {n : Nat} {P : W → Prop} (h : P .idle) : ∀ w ∈ List.replicate n W.idle, P w := by
  intro w hw; rw [(List.mem_replicate.mp hw).2]; exact h

theorem inv_init (env : Env) : Inv env (init env) where
  len := by simp [init]
  cap := by simp [init]
  acct := by intro x; simp [init, sumBy_replicate, W.holds]
  sane := mem_rep trivial
  key := by simp [init]
  ids := by intro k; simp [init, sumBy_replicate, W.items]
  made := by
    intro d hd
    have : (init env).out = [] := by
      simp only [State.out, init, List.map_nil, List.flatMap_nil, List.nil_append, List.append_nil, List.flatMap_eq_nil_iff]
      exact mem_rep rfl
    rw [this] at hd; cases hd
  srcs := by intro x; simp [init, sumBy_replicate, W.items, W.lost]
  lost := by
    rintro ⟨w, hw, hl⟩
    exact absurd (mem_rep (P := fun w => w.lost = []) rfl w hw) hl
  joined := by intro i hi; simp [init] at hi
  ph1 := fun _ => ⟨by simp [init, sumBy_replicate, W.pre], mem_rep trivial, by simp [init], rfl, rfl⟩
  ph2 := fun h => absurd rfl h

theorem reach_inv {env : Env} (ho : env.Ok) {s : State} (h : Reachable env s) : Inv env s := by
  induction h with
  | init => exact inv_init env
  | step a _ ha ih => exact inv_step ho ih (act_step ha).2

end Threads
end DumpSyms
