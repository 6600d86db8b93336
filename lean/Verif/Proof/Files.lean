import Verif.Model.WinUtils
import Verif.Proof.Path
import Verif.Proof.Output
import Verif.Props.Path
/-!
# Facts about file names and about reading files
-/
namespace DumpSyms
open Path

theorem components_last_body {b n : Str} (ha : isAbs b = false) (h : (components b).getLast? = some (.normal n)) :
    ((splitOn isSlash b).filterMap bodyComp).getLast? = some (.normal n) := by
  unfold components at h
  cases hs : splitOn isSlash b with
  | nil => rw [hs] at h; simp at h
  | cons first rest =>
    rw [hs] at h
    simp only [ha, Bool.false_eq_true, if_false] at h
    rw [List.filterMap_cons]
    rw [List.getLast?_append] at h
    cases hr : (rest.filterMap bodyComp).getLast? with
    | some x =>
      rw [hr] at h
      simp only [Option.some_or] at h
      cases hb : bodyComp first with
      | none => simpa [hb, hr] using h
      | some y => simp only; rw [List.getLast?_cons, hr]; simpa using h
    | none =>
      rw [hr] at h
      simp only [Option.none_or] at h
      have hn : rest.filterMap bodyComp = [] := by simpa using hr
      split at h
      · simp at h
      · cases hb : bodyComp first with
        | none => rw [hb] at h; simp at h
        | some y => rw [hb] at h; simp only [hn]; simpa using h

theorem components_root (b : Str) : components ('/' :: b) = .rootDir :: (splitOn isSlash b).filterMap bodyComp := by
  unfold components
  rw [splitOn]
  simp [isSlash, isAbs]

/-- Joining a directory in front of a path keeps its file name. -/
theorem fileName_push {b n : Str} (a : Str) (h : fileName b = some n) : fileName (push a b) = some n := by
  unfold push
  split
  · exact h
  · rename_i ha
    simp only [Bool.not_eq_true] at ha
    have hl : (components b).getLast? = some (.normal n) := by
      unfold fileName at h
      split at h
      · rename_i s hs; rw [hs]; cases h; rfl
      · cases h
    have hb := components_last_body ha hl
    have key : ∀ d, d ≠ [] → fileName (d ++ '/' :: b) = some n := by
      intro d hd
      unfold fileName
      rw [components_append d b hd, List.getLast?_append, hb]
      rfl
    split
    · rename_i he
      rcases he with he | he
      · have : a = [] := by simpa using he
        rw [this]; exact h
      · obtain ⟨d, hd⟩ := List.getLast?_eq_some_iff.mp he
        rw [hd]
        cases d with
        | nil =>
          simp only [List.nil_append, List.singleton_append]
          unfold fileName
          rw [components_root, List.getLast?_cons, hb]
          rfl
        | cons x d => simpa using key (x :: d) (by simp)
    · rename_i he
      exact key a (by rintro rfl; simp at he)

theorem fileName_dirPart {pre c : Str} (hp : DirPart pre) (hc : ProperComp c) : fileName (pre ++ c) = some c := by
  have := fileName_push pre (fileName_proper c hc)
  unfold push at this
  rw [proper_head hc] at this
  rw [if_neg (by simp), if_pos (by rcases hp with rfl | h <;> simp_all)] at this
  exact this

theorem setExtension_dirPart {pre stem e x : Str} (hp : DirPart pre) (hs : stem ≠ []) (he : '.' ∉ e)
    (hc : ProperComp (stem ++ '.' :: e)) (hx : x ≠ []) :
    setExtension (pre ++ (stem ++ '.' :: e)) x = pre ++ (stem ++ '.' :: x) := by
  unfold setExtension fileStem
  rw [fileName_dirPart hp hc]
  simp only [rsplitDot_append stem e he, if_neg hs, if_neg hx, trimTrail_proper pre _ hc]
  simp

/-- Adding an extension to a name without one. -/
theorem setExtension_dirPart_bare {pre stem x : Str} (hp : DirPart pre) (hs : '.' ∉ stem)
    (hc : ProperComp stem) (hx : x ≠ []) :
    setExtension (pre ++ stem) x = pre ++ (stem ++ '.' :: x) := by
  unfold setExtension fileStem
  rw [fileName_dirPart hp hc]
  simp only [rsplitDot_none stem hs, if_neg hx, trimTrail_proper pre _ hc]
  simp

/-- Any stem with a one-or-more letter extension is a proper file name. -/
theorem proper_stem {stem x : Str} (hs : stem ≠ []) (hs' : '/' ∉ stem) (hx : x ≠ []) (hx' : '/' ∉ x) :
    ProperComp (stem ++ '.' :: x) := by
  refine ⟨by simp, ?_, ?_, ?_⟩
  · simp only [List.mem_append, List.mem_cons, not_or]
    exact ⟨hs', by decide, hx'⟩
  · intro h
    cases stem with
    | nil => exact hs rfl
    | cons a s =>
      have := congrArg List.length h
      simp at this
  · intro h
    have := congrArg List.length h
    cases stem with
    | nil => exact hs rfl
    | cons a s =>
      cases x with
      | nil => exact hx rfl
      | cons b x => simp at this; omega

end DumpSyms
