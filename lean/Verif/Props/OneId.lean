import Verif.Props.Moments
import Verif.Props.WinMoments
import Verif.Props.MergeSamples
/-!
# C68 and C114 applied: inputs with one debug id, and the moments of a run
-/
namespace DumpSyms
namespace Run
namespace OneId
open Dumper (parseInput)

/-- Two inputs that are the same file, an output file and a store. -/
def oneConfig2 : Dumper.Config := { Dumper.exConfig with output := .fileAndStore (.path (str% "/o.sym")) (str% "/s") }
def oneThreads : Threads.Env := threads Dumper.exEnv none oneConfig2 exFiles (fun _ => sameDisk) exOrders none (str% "x86_64") Output.emptyWorld
def oneRun : List Threads.Action := [.send, .send] ++ Threads.steps 0 14 ++ [.join]
def oneLast : Threads.Moment :=
  played oneThreads (Output.callsOf Dumper.exEnv.io none oneConfig2.output oneConfig2.checkCfi) Output.emptyWorld (whole oneRun)
def oneBoth : ObjectInfo := theObj (ObjectInfo.merge id exA exA)

theorem one_read {i : Nat} {f : Str} (h : exFiles[i]? = some f) : (parseInput Dumper.exEnv oneConfig2 none (str% "x86_64") f sameDisk).1 = .ok exA := by
  match i with
  | 0 => cases h; rfl
  | 1 => cases h; rfl
  | i + 2 => cases h

theorem one_parse {i : Nat} {o : ObjectInfo} (h : oneThreads.parse i = .ok o) : o = exA := by
  match i with
  | 0 =>
    have : oneThreads.parse 0 = .ok exA := rfl
    rw [this] at h; cases h; rfl
  | 1 =>
    have : oneThreads.parse 1 = .ok exA := rfl
    rw [this] at h; cases h; rfl
  | i + 2 =>
    have : oneThreads.parse (i + 2) = .panic := rfl
    rw [this] at h; cases h

theorem one_made {l : List Nat} {o : ObjectInfo} (h : Threads.MadeOnce oneThreads l o) : o = exA ∨ o = oneBoth := by
  obtain ⟨hn, hlt, h⟩ := h
  cases h with
  | one f o ho => exact .inl (one_parse ho)
  | more f l o p c ho hm hc =>
    cases hm with
    | one g p hp =>
      rw [one_parse ho, one_parse hp] at hc
      have : ObjectInfo.merge id exA exA = .ok oneBoth := rfl
      cases this.symm.trans (show ObjectInfo.merge id exA exA = .ok _ from hc)
      exact .inr rfl
    | more g l q r p _ _ _ =>
      exfalso
      have h2 : ∀ x ∈ f :: g :: l, x < 2 := hlt
      have h3 : l ≠ [] := by rename_i hm _; cases hm <;> simp
      obtain ⟨x, l', rfl⟩ := List.exists_cons_of_ne_nil h3
      have a := h2 f (by simp)
      have b := h2 g (by simp)
      have c := h2 x (by simp)
      simp only [List.nodup_cons, List.mem_cons, not_or] at hn
      omega

theorem one_works : Works Dumper.exEnv none oneConfig2 oneThreads where
  mkdirs := fun _ => rfl
  create := fun _ => rfl
  chunks := fun _ => by simp [Dumper.exEnv, Output.goodDisk, Output.fullDisk]
  prints := by
    intro l o h
    rcases one_made h with rfl | rfl
    · exact ⟨_, rfl, fun _ => (by decide +kernel : (match exA.display none with | .ok t => (Utf8.encode t).length | _ => 0) ≤ 1000000)⟩
    · exact ⟨_, rfl, fun _ => (by decide +kernel : (match oneBoth.display none with | .ok t => (Utf8.encode t).length | _ => 0) ≤ 1000000)⟩
  cfi := fun h => by cases h

theorem one_ends : SeveralFiles Dumper.exEnv none oneConfig2 exFiles (fun _ => sameDisk) exOrders Output.emptyWorld (.ok ()) oneLast.out :=
  .returned none (str% "x86_64") _ rfl (played_moments (T := oneThreads) (calls := Output.callsOf Dumper.exEnv.io none oneConfig2.output oneConfig2.checkCfi) (by decide +kernel)) (by decide +kernel)

/-- C68 applied: the output file holds the symbol file of the module that is made of both inputs. -/
example : ∃ l o t, Threads.MadeOnce oneThreads l o ∧ (∀ j, j ∈ l ↔ j < 2) ∧ o.display none = .ok t ∧
    oneLast.out.files (str% "/o.sym") = some (Utf8.encode t) ∧ 20 ≤ t.length := by
  obtain ⟨l, o, t, h1, h2, h3, h4, h5⟩ := C68_one_id Dumper.exEnv none oneConfig2 exFiles (fun _ => sameDisk) exOrders Output.emptyWorld oneLast.out none (str% "x86_64")
    (by decide) rfl (fun t => .refl _) (fun i f hi => ⟨exA, one_read hi, ⟨by decide, by decide, by decide⟩⟩) one_works (str% "E1")
    (fun i f hi o ho => by rw [one_read hi] at ho; cases ho; rfl) one_ends
  refine ⟨l, o, t, h1, h2, h4, h5 _ (.file (.inr ⟨_, rfl⟩)), ?_⟩
  rcases one_made h1 with rfl | rfl
  · cases h4; decide +kernel
  · cases h4; decide +kernel

end OneId
end Run

namespace WinHost
namespace OneId
open Run (Works exOrders played played_moments whole)

/-- Two inputs that are the same file, an output file and a store. -/
def oneConfig2 : Dumper.Config := { Dumper.exConfig with output := .fileAndStore (.path (str% "D:\\o.sym")) (str% "C:\\store") }
def oneThreads : Threads.Env := threads winEnv none oneConfig2 winFiles (fun _ => winSameDisk) exOrders none (str% "x86_64") Output.emptyWorld
def oneRun : List Threads.Action := [.send, .send] ++ Threads.steps 0 14 ++ [.join]
def oneLast : Threads.Moment :=
  played oneThreads (callsOf winEnv.io none oneConfig2.output oneConfig2.checkCfi) Output.emptyWorld (whole oneRun)
def oneBoth : ObjectInfo := theObj (ObjectInfo.merge id winA winA)

theorem one_read {i : Nat} {f : Str} (h : winFiles[i]? = some f) : (parseInput winEnv oneConfig2 none (str% "x86_64") f winSameDisk).1 = .ok winA := by
  match i with
  | 0 => cases h; rfl
  | 1 => cases h; rfl
  | i + 2 => cases h

theorem one_parse {i : Nat} {o : ObjectInfo} (h : oneThreads.parse i = .ok o) : o = winA := by
  match i with
  | 0 =>
    have : oneThreads.parse 0 = .ok winA := rfl
    rw [this] at h; cases h; rfl
  | 1 =>
    have : oneThreads.parse 1 = .ok winA := rfl
    rw [this] at h; cases h; rfl
  | i + 2 =>
    have : oneThreads.parse (i + 2) = .panic := rfl
    rw [this] at h; cases h

theorem one_made {l : List Nat} {o : ObjectInfo} (h : Threads.MadeOnce oneThreads l o) : o = winA ∨ o = oneBoth := by
  obtain ⟨hn, hlt, h⟩ := h
  cases h with
  | one f o ho => exact .inl (one_parse ho)
  | more f l o p c ho hm hc =>
    cases hm with
    | one g p hp =>
      rw [one_parse ho, one_parse hp] at hc
      have : ObjectInfo.merge id winA winA = .ok oneBoth := rfl
      cases this.symm.trans (show ObjectInfo.merge id winA winA = .ok _ from hc)
      exact .inr rfl
    | more g l q r p _ _ _ =>
      exfalso
      have h2 : ∀ x ∈ f :: g :: l, x < 2 := hlt
      have h3 : l ≠ [] := by rename_i hm _; cases hm <;> simp
      obtain ⟨x, l', rfl⟩ := List.exists_cons_of_ne_nil h3
      have a := h2 f (by simp)
      have b := h2 g (by simp)
      have c := h2 x (by simp)
      simp only [List.nodup_cons, List.mem_cons, not_or] at hn
      omega

theorem one_works : Works winEnv none oneConfig2 oneThreads where
  mkdirs := fun _ => rfl
  create := fun _ => rfl
  chunks := fun _ => by simp [winEnv, Dumper.exEnv, Output.goodDisk, Output.fullDisk]
  prints := by
    intro l o h
    rcases one_made h with rfl | rfl
    · exact ⟨_, rfl, fun _ => (by decide +kernel : (match winA.display none with | .ok t => (Utf8.encode t).length | _ => 0) ≤ 1000000)⟩
    · exact ⟨_, rfl, fun _ => (by decide +kernel : (match oneBoth.display none with | .ok t => (Utf8.encode t).length | _ => 0) ≤ 1000000)⟩
  cfi := fun h => by cases h

theorem one_ends : SeveralFiles winEnv none oneConfig2 winFiles (fun _ => winSameDisk) exOrders Output.emptyWorld (.ok ()) oneLast.out :=
  .returned none (str% "x86_64") _ rfl (played_moments (T := oneThreads) (calls := callsOf winEnv.io none oneConfig2.output oneConfig2.checkCfi) (by decide +kernel)) (by decide +kernel)

theorem onePlain : PlainStore oneConfig2.output := by
  rintro dir (h | ⟨fo, h⟩) _
  · cases h
  · cases h; exact ⟨_, _, _, .driveRooted 'C' '\\' _ (by decide) (by decide)⟩

/-- C114 applied: the output file holds the symbol file of the module that is made of both inputs. -/
example : ∃ l o t, Threads.MadeOnce oneThreads l o ∧ (∀ j, j ∈ l ↔ j < 2) ∧ o.display none = .ok t ∧
    oneLast.out.files (str% "D:\\o.sym") = some (Utf8.encode t) ∧ 20 ≤ t.length := by
  obtain ⟨l, o, t, h1, h2, h3, h4, h5⟩ := C114_one_id winEnv none oneConfig2 winFiles (fun _ => winSameDisk) exOrders Output.emptyWorld oneLast.out none (str% "x86_64")
    (by decide) rfl (fun t => .refl _) onePlain (fun i f hi => ⟨winA, one_read hi, winNames.1⟩) one_works (str% "E1")
    (fun i f hi o ho => by rw [one_read hi] at ho; cases ho; rfl) one_ends
  refine ⟨l, o, t, h1, h2, h4, h5 _ (.file (.inr ⟨_, rfl⟩)), ?_⟩
  rcases one_made h1 with rfl | rfl
  · cases h4; decide +kernel
  · cases h4; decide +kernel

/-- C114 applied at a moment at which both workers are writing: the place of the first module has a beginning of its symbol file, and a file that is not asked for is
untouched. -/
example : winKillLast.out.files (str% "C:\\store\\lib.so\\E1\\lib.so.sym") = some (Utf8.encode (str% "MODULE Linux x86")) ∧
    Output.Untouched Output.emptyWorld winKillLast.out .stdout ∧
    ∃ l o part t, Threads.MadeOnce winKillThreads l o ∧ o.debugId = str% "E1" ∧ part = Utf8.encode (str% "MODULE Linux x86") ∧ o.display (some []) = .ok t ∧
      part <+: Utf8.encode t := by
  have hfile : winKillLast.out.files (str% "C:\\store\\lib.so\\E1\\lib.so.sym") = some (Utf8.encode (str% "MODULE Linux x86")) := by decide +kernel
  have hpd : PlainDir (str% "C:\\store") := winStore_plain _ (.inl rfl) (by decide)
  have hm := played_moments (T := winKillThreads) (calls := callsOf winEnv.io (some []) winKillConfig.output winKillConfig.checkCfi) (out := Output.emptyWorld)
    (ps := Run.killRun) (by decide +kernel)
  obtain ⟨h1, h2⟩ := C114_moments winEnv (some []) winKillConfig winFiles (fun _ => winTwoDisk) exOrders Output.emptyWorld none (str% "x86_64")
    (fun t => .refl _) winStore_plain (fun i f o hi ho => by
      match i with
      | 0 => cases hi; rw [winKill_a] at ho; cases ho; exact winNames.1
      | 1 => cases hi; rw [winKill_b] at ho; cases ho; exact winNames.2
      | i + 2 => cases hi) (by simp [winEnv, Dumper.exEnv, Output.goodDisk, Output.fullDisk]) hm
  refine ⟨hfile, h1 .stdout (fun l o _ hr => ?_), ?_⟩
  · cases hr with
    | file h => rcases h with h | ⟨d, h⟩ <;> cases h
  · rcases h2 (str% "C:\\store") (by decide) (.inl rfl) [0] winA (str% "C:\\store\\lib.so\\E1\\lib.so.sym") ⟨by decide, by decide, .one 0 winA winKill_a⟩
      ((inStore_iff hpd winNames.1.1 winNames.1.2).mpr (by decide +kernel)) with h | ⟨l, o, part, a1, a2, _, a4, a5⟩
    · have h : winKillLast.out.files (str% "C:\\store\\lib.so\\E1\\lib.so.sym") = none := h
      rw [hfile] at h; cases h
    · have a4 : winKillLast.out.files (str% "C:\\store\\lib.so\\E1\\lib.so.sym") = some part := a4
      rw [hfile] at a4
      cases a4
      rcases a5 with a5 | ⟨t, a5, a6⟩
      · exact absurd a5 (by decide +kernel)
      · exact ⟨l, o, _, t, a1, a2.trans winIds.1, rfl, a5, a6⟩

end OneId
end WinHost
end DumpSyms
