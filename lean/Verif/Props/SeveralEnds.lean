import Verif.Props.SeveralSamples
import Verif.Props.ThreadsReturn
/-!
# C85: whether a run over several files can end
-/
namespace DumpSyms

namespace Threads
open Output

/-- A worker can make all the calls of its writing before anything else happens. -/
theorem drained {env : Env} {calls : ObjectInfo → List Todo} {out : World} (i : Nat) {m : Moment} (h : Moments env calls out m)
    (hc : m.s.crashed = false) : ∃ m', Moments env calls out m' ∧ m'.s = m.s ∧ m'.todo i = [] ∧ ∀ j, j ≠ i → m'.todo j = m.todo j := by
  generalize ht : m.todo i = l
  induction l generalizing m with
  | nil => exact ⟨m, h, rfl, ht, fun _ _ => rfl⟩
  | cons t ts ih =>
    obtain ⟨k, hk, hmake⟩ : ∃ k, k ≠ 0 ∧ (t.make k m.out).1 = [] := by
      cases t with
      | mkdirs d => exact ⟨1, by simp, rfl⟩
      | create p => exact ⟨1, by simp, rfl⟩
      | write fo pos bytes => exact ⟨bytes.length + 1, by simp, by simp [Todo.make]⟩
    have hgo : Turn.go env calls (.call i k) m =
        some { m with out := (t.make k m.out).2, todo := fun j => if j = i then ts else m.todo j } := by
      simp [Turn.go, hc, hk, ht, hmake]
    obtain ⟨m', h1, h2, h3, h4⟩ := ih (h.step _ hgo) hc (by simp)
    exact ⟨m', h1, h2, h3, fun j hj => by rw [h4 j hj]; simp [hj]⟩

/-- Every state of the threads is met by a run in which each worker writes its module in one go. -/
theorem reach_moments {env : Env} (hc : ∀ s, Reachable env s → s.crashed = false) (calls : ObjectInfo → List Todo) (out : World) {s : State}
    (h : Reachable env s) : ∃ m, Moments env calls out m ∧ m.s = s ∧ ∀ i, m.todo i = [] := by
  induction h with
  | init => exact ⟨_, .init, rfl, fun _ => rfl⟩
  | @step s s' a hr ha ih =>
    obtain ⟨m, h1, h2, h3⟩ := ih
    subst h2
    have hr' : Reachable env s' := .step a hr ha
    cases a with
    | worker i =>
      have hgo : Turn.go env calls (.move (.worker i)) m =
          some { m with s := s', todo := fun j => if j = i then s'.todo calls i else m.todo j } := by
        simp [Turn.go, h3 i, ha]
      obtain ⟨m', k1, k2, k3, k4⟩ := drained i (h1.step _ hgo) (hc _ hr')
      refine ⟨m', k1, k2, fun j => ?_⟩
      by_cases hj : j = i
      · rw [hj]; exact k3
      · rw [k4 j hj]; simp [hj, h3 j]
    | send =>
      have hgo : Turn.go env calls (.move .send) m = some { m with s := s' } := by simp [Turn.go, ha]
      exact ⟨_, h1.step _ hgo, rfl, h3⟩
    | join =>
      have hgo : Turn.go env calls (.move .join) m = some { m with s := s' } := by simp [Turn.go, ha]
      exact ⟨_, h1.step _ hgo, rfl, h3⟩

end Threads

namespace Run
open Dumper

/-- **C85, whether the program can end.**  Given two inputs or more that can be dumped, the program can end (with status 0) exactly if it is
given two jobs or more, or one job and inputs with one debug id. -/
theorem C85_can_end_iff (env : Env) (version : Str) (cpus : Nat) (o : Options) (inputs : List Input) (w : Cache.World) (orders : Orders)
    (mapping : Option (List Mapping.Generator)) (arch : Str) (k : Nat) (hrun : Workable env version o inputs w orders mapping arch k)
    (out : Output.World) (jobs : Nat) (hjobs : Mapping.Numeral o.numJobs jobs ∨ ((∀ n, ¬ Mapping.Numeral o.numJobs n) ∧ jobs = cpus))
    (htwo : 2 ≤ inputs.length) :
    (∃ code out', Exits env version cpus o w orders out code out') ↔
      2 ≤ jobs ∨ (jobs = 1 ∧ ∀ x ∈ inputs, ∀ y ∈ inputs, x.obj.debugId = y.obj.debugId) := by
  obtain ⟨c, rules, g⟩ := hrun.goes cpus out
  have hj : c.numJobs = jobs := (g.config.jobs jobs).mpr hjobs
  have hids : ∀ ws : Nat → Cache.World, (∀ i, Meanwhile env w (ws i)) → ∀ f d (hf : f < inputs.length),
      Threads.HasId (threads env (some (Infos version o)) c (inputs.map fun x => x.pre ++ x.filename) ws orders mapping arch out) f d ↔
        d = (inputs[f]).obj.debugId := by
    intro ws hw f d hf
    obtain ⟨m, _, _, h1, _⟩ := g.dump inputs[f] (List.getElem_mem hf)
    have h2 := (g.reads (ws f) (hw f) inputs[f] (List.getElem_mem hf) m).mpr h1
    have h3 := (dump_sound (hrun.each w .start _ (List.getElem_mem hf)).clear hrun.lines h1).2.2.1
    have h4 : (threads env (some (Infos version o)) c (inputs.map fun x => x.pre ++ x.filename) ws orders mapping arch out).parse f = .ok m := by
      simp only [threads, List.getElem?_map, List.getElem?_eq_getElem hf, Option.map_some]
      exact h2
    constructor
    · rintro ⟨m', a, b⟩
      rw [h4] at a; cases a
      rw [← b, h3]
    · rintro rfl
      exact ⟨m, h4, h3⟩
  have hret : ∀ ws : Nat → Cache.World, (∀ i, Meanwhile env w (ws i)) →
      ((∃ s, Threads.Reachable (threads env (some (Infos version o)) c (inputs.map fun x => x.pre ++ x.filename) ws orders mapping arch out) s ∧
        s.Returned (threads env (some (Infos version o)) c (inputs.map fun x => x.pre ++ x.filename) ws orders mapping arch out)) ↔
      2 ≤ jobs ∨ (jobs = 1 ∧ ∀ x ∈ inputs, ∀ y ∈ inputs, x.obj.debugId = y.obj.debugId)) := by
    intro ws hw
    have hmin : ∀ n : Nat, n ≤ 2 → (n ≤ min c.numJobs (inputs.map fun x => x.pre ++ x.filename).length ↔ n ≤ jobs) := by
      intro n hn
      rw [List.length_map, hj]; omega
    rw [Threads.C51_can_return_iff _ (by exact hrun.results) (g.smooth ws hw) (by simpa [threads] using htwo)]
    refine or_congr (hmin 2 (by omega)) (and_congr ?_ ?_)
    · have h1 := hmin 1 (by omega)
      have h2 := hmin 2 (by omega)
      simp only [threads]; omega
    · constructor
      · intro h x hx y hy
        obtain ⟨f, hf, rfl⟩ := List.mem_iff_getElem.mp hx
        obtain ⟨f', hf', rfl⟩ := List.mem_iff_getElem.mp hy
        exact h f f' _ _ (by simpa [threads] using hf) (by simpa [threads] using hf') ((hids ws hw f _ hf).mpr rfl) ((hids ws hw f' _ hf').mpr rfl)
      · intro h f f' d d' hf hf' hd hd'
        have hf : f < inputs.length := by simpa [threads] using hf
        have hf' : f' < inputs.length := by simpa [threads] using hf'
        rw [(hids ws hw f d hf).mp hd, (hids ws hw f' d' hf').mp hd']
        exact h _ (List.getElem_mem hf) _ (List.getElem_mem hf')
  constructor
  · rintro ⟨code, out', h⟩
    obtain ⟨_, ws, hw, hs⟩ := g.ends code out' h
    refine (hret ws hw).mp ?_
    cases hs with
    | returned mapping' arch' m hp hr hs =>
      rw [g.prep] at hp; cases hp
      exact ⟨m.s, Threads.moments_reach hr, hs⟩
  · intro h
    obtain ⟨s, h1, h2⟩ := (hret (fun _ => w) (fun _ => .start)).mpr h
    obtain ⟨m, k1, k2, _⟩ := Threads.reach_moments
      (fun s hs => Threads.reach_not_crashed (by exact hrun.results) (g.smooth _ fun _ => .start) hs)
      (Output.callsOf env.io (some (Infos version o)) c.output c.checkCfi) out h1
    subst k2
    refine ⟨_, m.out, .acts _ (.ok ()) m.out g.infos ?_⟩
    rw [g.action, hrun.files]
    exact .several c _ _ _ (by simpa using hrun.notOne) (fun _ => .start) (.returned mapping arch m g.prep k1 h2)

/-- The example of C85: three inputs, two jobs. -/
example : ∃ code out', Exits exEnv2 (str% "1.0") 4 exOptions3 exDisk3 exOrders Output.emptyWorld code out' :=
  (C85_can_end_iff _ _ _ _ exInputs _ _ none (str% "x86_64") 2 exSeveral.toWorkable _ 2 (.inl ⟨['2'], .inl rfl, by decide, by decide, by decide, by decide⟩)
    (by decide)).mpr (.inl (by decide))

/-- The number of jobs has no part in what is required of the inputs. -/
theorem Workable.withJobs {env : Env} {version : Str} {o : Options} {inputs : List Input} {w : Cache.World} {orders : Orders}
    {mapping : Option (List Mapping.Generator)} {arch : Str} {k : Nat} (h : Workable env version o inputs w orders mapping arch k) (j : Str) :
    Workable env version { o with numJobs := j } inputs w orders mapping arch k where
  sha := h.sha
  order := h.order
  noList := h.noList
  files := h.files
  notOne := h.notOne
  info := h.info
  lines := h.lines
  sane := h.sane
  results := h.results
  hashes := h.hashes
  rules := h.rules
  knownArch := h.knownArch
  each := h.each
  size := h.size
  below := h.below
  cfi := h.cfi
  parts := h.parts
  mkdirs := h.mkdirs
  create := h.create
  room := h.room

theorem numeral1 : Mapping.Numeral ['1'] 1 := ⟨['1'], .inl rfl, by decide, by decide, by decide, by decide⟩

/-- The same three inputs with one job: they have two debug ids, and the program never ends. -/
example : ¬ ∃ code out', Exits exEnv2 (str% "1.0") 4 { exOptions3 with numJobs := ['1'] } exDisk3 exOrders Output.emptyWorld code out' := by
  rw [C85_can_end_iff _ _ _ _ exInputs _ _ none (str% "x86_64") 2 (exSeveral.toWorkable.withJobs _) _ 1 (.inl numeral1) (by decide)]
  rintro (h | ⟨_, h⟩)
  · exact absurd h (by decide)
  · exact absurd (h in0 (by simp [exInputs]) in2 (by simp [exInputs])) (by decide)

/-- The two inputs that make up one module, with one job: the program can end. -/
example : ∃ code out', Exits exEnv2 (str% "1.0") 4 { exOptions2 with numJobs := ['1'] } exDisk3 exOrders Output.emptyWorld code out' := by
  rw [C85_can_end_iff _ _ _ _ [in0, in1] _ _ none (str% "x86_64") 2 (exWorkable.withJobs _) _ 1 (.inl numeral1) (by decide)]
  refine .inr ⟨rfl, fun x hx y hy => ?_⟩
  simp only [List.mem_cons, List.not_mem_nil, or_false] at hx hy
  rcases hx with rfl | rfl <;> rcases hy with rfl | rfl <;> rfl

end Run
end DumpSyms
