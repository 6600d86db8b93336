import Verif.Model.OneDisk
import Verif.Props.Moments
import Verif.Props.Jobs
/-!
# C106: a destination may be one of the files that are read
-/
namespace DumpSyms
open ObjectInfo

namespace Threads
open Output

/-- Input `f` has not been read yet, or is being read: it is still to be sent to the workers, in the queue, or with a worker that reads it. -/
def State.ToRead (s : State) (f : Nat) : Prop := f ∈ s.toSend ∨ .get f ∈ s.queue ∨ .parsing f ∈ s.ws

theorem toRead_ph1 {env : Env} {s : State} (hi : Inv env s) {f : Nat} (h : s.ToRead f) : s.coordinator = none := by
  cases hc : s.coordinator with
  | none => rfl
  | some c =>
    exfalso
    have p2 := hi.ph2 (by rw [hc]; simp)
    rcases h with h | h | h
    · rw [p2.sent] at h; cases h
    · obtain ⟨ds, k, e, _⟩ := p2.queue
      rw [e] at h
      simp [List.mem_append, List.mem_map, List.mem_replicate] at h
    · exact p2.late _ h

/-- The number of the coordinator, once chosen, stays. -/
theorem coordinator_stays {env : Env} {a : Action} {s s' : State} (h : act env a s = some s') (hc : s'.coordinator = none) : s.coordinator = none := by
  have hst := (act_step h).2
  cases hst <;> first | exact hc | (simp at hc)

/-- Before the coordinator is chosen nothing is written and nothing is about to be. -/
theorem quiet_ph1 {env : Env} (ho : env.Ok) {calls : ObjectInfo → List Todo} {out : World} {m : Moment} (h : Moments env calls out m) :
    (∀ i, m.s.job i = none → m.todo i = []) ∧ (m.s.coordinator = none → m.out = out) := by
  induction h with
  | init => exact ⟨fun _ _ => rfl, fun _ => rfl⟩
  | @step m m' a hm hg ih =>
    have hr := moments_reach hm
    cases a with
    | move a =>
      cases a with
      | worker i =>
        simp only [Turn.go] at hg
        split at hg
        · obtain ⟨s, h1, h2⟩ := Option.map_eq_some_iff.mp hg
          subst h2
          obtain ⟨w, w', hw, hs, _⟩ := worker_moved h1
          have hj := job_set hw hs
          refine ⟨fun j hn => ?_, fun hc => ih.2 (coordinator_stays h1 hc)⟩
          simp only at hn ⊢
          by_cases e : j = i
          · subst e
            simp only [if_true]
            unfold State.todo
            unfold State.job at hn
            rw [hn]
          · simp only [e, if_false]
            rw [hj, if_neg e] at hn
            exact ih.1 j hn
        · cases hg
      | send =>
        obtain ⟨s, h1, h2⟩ := Option.map_eq_some_iff.mp hg
        subst h2
        obtain ⟨e, _⟩ := act_main (by intro i; simp) h1
        exact ⟨fun j hn => ih.1 j (by unfold State.job at hn ⊢; simpa [e] using hn), fun hc => ih.2 (coordinator_stays h1 hc)⟩
      | join =>
        obtain ⟨s, h1, h2⟩ := Option.map_eq_some_iff.mp hg
        subst h2
        obtain ⟨e, _⟩ := act_main (by intro i; simp) h1
        exact ⟨fun j hn => ih.1 j (by unfold State.job at hn ⊢; simpa [e] using hn), fun hc => ih.2 (coordinator_stays h1 hc)⟩
    | call i k =>
      simp only [Turn.go] at hg
      split at hg
      · cases hg
      · split at hg
        · cases hg
        · rename_i t ts ht
          cases hg
          have hjob : m.s.job i ≠ none := fun hn => by rw [ih.1 i hn] at ht; cases ht
          refine ⟨fun j hn => ?_, fun hc => ?_⟩
          · simp only at hn ⊢
            by_cases e : j = i
            · subst e; exact absurd hn hjob
            · simp only [e, if_false]; exact ih.1 j hn
          · exfalso
            have p1 := (reach_inv ho hr).ph1 hc
            cases hj : m.s.job i with
            | none => exact hjob hj
            | some d =>
              obtain ⟨w, a1, a2⟩ := job_ws hj
              have := p1.early w (List.mem_of_getElem? a1)
              cases w <;> simp_all [W.job, W.early]

/-- **C106, while reading.** As long as an input is still to be read or is being read, nothing has been written, no call that writes is under way, and
none is about to be made. -/
theorem C106_read_first (env : Env) (ho : env.Ok) (calls : ObjectInfo → List Todo) (out : World) (m : Moment) (h : Moments env calls out m)
    (f : Nat) (hf : m.s.ToRead f) : m.out = out ∧ (∀ i, m.todo i = []) ∧ m.s.log = [] := by
  have hi := reach_inv ho (moments_reach h)
  have hc := toRead_ph1 hi hf
  obtain ⟨q1, q2⟩ := quiet_ph1 ho h
  have p1 := hi.ph1 hc
  refine ⟨q2 hc, fun i => q1 i ?_, p1.log⟩
  cases hj : m.s.job i with
  | none => rfl
  | some d =>
    obtain ⟨w, a1, a2⟩ := job_ws hj
    have := p1.early w (List.mem_of_getElem? a1)
    cases w <;> simp_all [W.job, W.early]

/-- Without a worker that reads an input, a step does not depend on what reading gives. -/
theorem go_parse {env : Env} (p : Nat → Res ObjectInfo) {calls : ObjectInfo → List Todo} {a : Turn} {m : Moment}
    (h : ∀ f, .parsing f ∉ m.s.ws) : a.go { env with parse := p } calls m = a.go env calls m := by
  have hact : ∀ b, act { env with parse := p } b m.s = act env b m.s := by
    intro b
    unfold act
    cases b with
    | send => rfl
    | join => rfl
    | worker i =>
      simp only
      cases hw : m.s.ws[i]? with
      | none => rfl
      | some w =>
        simp only
        have : work { env with parse := p } m.s i w = work env m.s i w := by
          cases w with
          | parsing f => exact absurd (List.mem_of_getElem? hw) (h f)
          | idle => rfl
          | merging d => rfl
          | aborting a b k => cases k <;> rfl
          | check => rfl
          | decr => rfl
          | coord => rfl
          | storing d => rfl
          | sending ds k => cases ds <;> cases k <;> rfl
          | dumping d => rfl
          | ended => rfl
          | failed l => rfl
          | panicked l l' => rfl
        rw [this]
  cases a with
  | move a => cases a <;> simp only [Turn.go, hact]
  | call i k => rfl

theorem go_env {env : Env} {calls : ObjectInfo → List Todo} {out : World} (ho : env.Ok) {parse : World → Nat → Res ObjectInfo}
    (hp : parse out = env.parse) {m : Moment} (hm : Moments env calls out m) (a : Turn) :
    a.go { env with parse := parse m.out } calls m = a.go env calls m := by
  by_cases h : ∃ f, .parsing f ∈ m.s.ws
  · obtain ⟨f, hf⟩ := h
    rw [(C106_read_first env ho calls out m hm f (.inr (.inr hf))).1, hp]
  · exact go_parse _ fun f hf => h ⟨f, hf⟩

/-- **C106, the threads.** Whether reading meets what has been written or what there was at the start makes no difference: the moments of a run are
the same. -/
theorem C106_moments (env : Env) (ho : env.Ok) (calls : ObjectInfo → List Todo) (out : World) (parse : World → Nat → Res ObjectInfo)
    (hp : parse out = env.parse) (m : Moment) : SharedMoments env parse calls out m ↔ Moments env calls out m := by
  constructor
  · intro h
    induction h with
    | init => exact .init
    | step a _ hg ih => exact .step a ih (by rw [go_env ho hp ih] at hg; exact hg)
  · intro h
    induction h with
    | init => exact .init
    | step a hm hg ih => exact .step a ih (by rw [go_env ho hp hm]; exact hg)

end Threads

namespace Run
open Dumper

/-- **C106.** A run over several files on a disk that is both read and written ends in exactly the ways, and leaves exactly what, it does when the
destinations are kept apart from all that is read. -/
theorem C106_several (env : Env) (seen : Output.World → Seen) (extra : Option (List Str)) (config : Config) (files : List Str) (orders : Orders)
    (out : Output.World) (horder : ∀ t, (orders.results t).Perm t) (hstart : (seen out).env = env) (r : Res Unit) (out' : Output.World) :
    SharedSeveral env seen extra config files orders out r out' ↔ SeveralFiles env extra config files (seen out).disks orders out r out' := by
  have key : ∀ mapping arch, sharedParse seen config files mapping arch out =
      (threads env extra config files (seen out).disks orders mapping arch out).parse := by
    intro mapping arch
    funext i
    subst hstart
    rfl
  constructor
  · intro h
    cases h with
    | badOptions m h => exact .badOptions m h
    | badMapping h => exact .badMapping h
    | returned mapping arch m h hr hs => exact .returned mapping arch m h ((Threads.C106_moments (threads env extra config files (seen out).disks orders mapping arch out) horder _ _ _ (key mapping arch) m).mp hr) hs
    | crashed mapping arch m h hr hs => exact .crashed mapping arch m h ((Threads.C106_moments (threads env extra config files (seen out).disks orders mapping arch out) horder _ _ _ (key mapping arch) m).mp hr) hs
  · intro h
    cases h with
    | badOptions m h => exact .badOptions m h
    | badMapping h => exact .badMapping h
    | returned mapping arch m h hr hs => exact .returned mapping arch m h ((Threads.C106_moments (threads env extra config files (seen out).disks orders mapping arch out) horder _ _ _ (key mapping arch) m).mpr hr) hs
    | crashed mapping arch m h hr hs => exact .crashed mapping arch m h ((Threads.C106_moments (threads env extra config files (seen out).disks orders mapping arch out) horder _ _ _ (key mapping arch) m).mpr hr) hs

/-! ### A run whose output is one of its inputs -/

/-- `dump_syms /d/a /d/c -o /d/c`: the second input is overwritten. -/
def overConfig : Config := { jobConfig false with output := .file (.path (str% "/d/c")) }

/-- Every file is read as it is at that moment. -/
def overSeen (out : Output.World) : Seen := ⟨exEnv2, fun _ => { exDisk3 with disk := overlay Output.emptyWorld exDisk3.disk out }⟩

def overThreads : Threads.Env :=
  threads exEnv2 (some []) overConfig (jobOptions false).filenames (overSeen Output.emptyWorld).disks exOrders none (str% "x86_64") Output.emptyWorld

def overLast : Threads.Moment :=
  played overThreads (Output.callsOf exEnv2.io (some []) overConfig.output overConfig.checkCfi) Output.emptyWorld (whole (jobRun 0 1))

/-- A file that has been written is read as it is now, and any other as it was. -/
theorem overlay_now (out : Output.World) (d : Disk) (out' : Output.World) (p : Str) :
    (∀ b, out'.files p = some b → out.files p ≠ some b → overlay out d out' p = some (.file b true)) ∧
    (out'.files p = out.files p → overlay out d out' p = d p) := by
  unfold overlay
  refine ⟨fun b h1 h2 => ?_, fun h => by rw [if_pos h]⟩
  rw [if_neg (by rw [h1]; exact fun h => h2 h.symm), h1]
  rfl

/-- **C106, a run whose output is one of its inputs.** The run ends well on the one disk.  Once it has ended, its second input could not be read any
more: the file has become a symbol file. -/
theorem C106_over_input : SharedSeveral exEnv2 overSeen (some []) overConfig (jobOptions false).filenames exOrders Output.emptyWorld (.ok ()) overLast.out ∧
    (overLast.out.files (str% "/d/c")).isSome ∧
    (∀ o, sharedParse overSeen overConfig (jobOptions false).filenames none (str% "x86_64") Output.emptyWorld 1 = .ok o → o.debugId = str% "D1") ∧
    (match sharedParse overSeen overConfig (jobOptions false).filenames none (str% "x86_64") Output.emptyWorld 1 with | .ok _ => true | _ => false) = true ∧
    (match sharedParse overSeen overConfig (jobOptions false).filenames none (str% "x86_64") overLast.out 1 with | .ok _ => true | _ => false) = false := by
  refine ⟨(C106_several exEnv2 overSeen (some []) overConfig _ exOrders Output.emptyWorld exSeveral.results rfl (.ok ()) _).mpr
    (.returned none (str% "x86_64") overLast rfl (played_moments (by decide +kernel)) (by decide +kernel)), by decide +kernel, ?_, by decide +kernel,
    by decide +kernel⟩
  intro o h
  have e : sharedParse overSeen overConfig (jobOptions false).filenames none (str% "x86_64") Output.emptyWorld 1 = .ok d2 := by rfl
  rw [e] at h
  cases h
  decide +kernel

/-- While the second input is being read, nothing is written yet. -/
example (m : Threads.Moment) (h : Threads.Moments overThreads (Output.callsOf exEnv2.io (some []) overConfig.output overConfig.checkCfi) Output.emptyWorld m)
    (hf : m.s.ToRead 1) : m.out = Output.emptyWorld :=
  (Threads.C106_read_first overThreads exSeveral.results _ _ m h 1 hf).1
example : (Threads.init overThreads).ToRead 1 := .inl (by decide)

end Run
end DumpSyms
