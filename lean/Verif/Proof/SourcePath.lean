import Verif.Spec.Source
import Verif.Props.Path
/-!
# The path computed by the model is that of the specification
-/
namespace DumpSyms

theorem pathToString_textOf (bytes : List UInt8) : TextOf bytes (SourceFiles.pathToString bytes) := by
  unfold SourceFiles.pathToString TextOf String.fromUTF8?
  by_cases h : bytes.toByteArray.IsValidUTF8
  · left
    simp only [h, dif_pos, String.ofList_toList]
    rfl
  · right
    simp only [h, dif_neg, not_false_eq_true, and_true]
    intro t ht
    exact h (ht ▸ t.isValidUTF8)


theorem Joins.unique {pl : Platform} {left right p q : Str} (h1 : Joins pl left right p) (h2 : Joins pl left right q) : p = q := by
  obtain ⟨l1, t1, a1, r1, e1, f1, c1, d1, g1, k1, rfl⟩ := h1
  obtain ⟨l2, t2, a2, r2, e2, f2, c2, d2, g2, k2, rfl⟩ := h2
  have hl : l1 = l2 := by
    rcases List.append_eq_append_iff.mp (e1.symm.trans e2) with ⟨x, hx, hy⟩ | ⟨x, hx, hy⟩
    · cases hlast : x.getLast? with
      | none => rw [List.getLast?_eq_none_iff] at hlast; subst hlast; simpa using hx.symm
      | some z =>
        exact absurd (c1 z (by rw [hy]; exact List.mem_append_left _ (List.mem_of_getLast? hlast)))
          (g2 z (by rw [hx, List.getLast?_append, hlast]; rfl))
    · cases hlast : x.getLast? with
      | none => rw [List.getLast?_eq_none_iff] at hlast; subst hlast; simpa using hx
      | some z =>
        exact absurd (c2 z (by rw [hy]; exact List.mem_append_left _ (List.mem_of_getLast? hlast)))
          (g1 z (by rw [hx, List.getLast?_append, hlast]; rfl))
  have hr : r1 = r2 := by
    rcases List.append_eq_append_iff.mp (f1.symm.trans f2) with ⟨x, hx, hy⟩ | ⟨x, hx, hy⟩
    · cases x with
      | nil => simpa using hy
      | cons z x => exact absurd (d2 z (by rw [hx]; simp)) (k1 z (by rw [hy]; rfl))
    · cases x with
      | nil => simpa using hy.symm
      | cons z x => exact absurd (d1 z (by rw [hx]; simp)) (k2 z (by rw [hy]; rfl))
  rw [hl, hr]

theorem TextOf.unique {b : List UInt8} {s t : Str} (h1 : TextOf b s) (h2 : TextOf b t) : s = t := by
  rcases h1 with h1 | ⟨n1, rfl⟩ <;> rcases h2 with h2 | ⟨n2, rfl⟩
  · have : String.ofList s = String.ofList t := String.toByteArray_inj.mp (h1.trans h2.symm)
    exact String.ofList_injective this
  · exact absurd h1 (n2 _)
  · exact absurd h2 (n1 _)
  · rfl

theorem SourcePath.unique {pl : Platform} {comp : List UInt8} {dir name p q : Str} (h1 : SourcePath pl comp dir name p)
    (h2 : SourcePath pl comp dir name q) : p = q := by
  by_cases h : StandsAlone pl dir ∨ comp = []
  · exact (h1.1 h).unique (h2.1 h)
  · have ha : ¬ StandsAlone pl dir := fun x => h (.inl x)
    have hb : comp ≠ [] := fun x => h (.inr x)
    obtain ⟨c, d, a1, a2, a3⟩ := h1.2 ha hb
    obtain ⟨c', d', b1, b2, b3⟩ := h2.2 ha hb
    have := a1.unique b1
    subst this
    have := a2.unique b2
    subst this
    exact a3.unique b3

theorem Resolved.unique {pl : Platform} {path p q : Str} (h : Resolved pl path p) (h' : Resolved pl path q) : p = q := by
  cases pl <;> (unfold Resolved at h h'; rw [h, h'])

theorem resolved_normalizeHere (pl : Platform) (path : Str) : Resolved pl path (SourceFiles.normalizeHere pl path) := by
  cases pl with
  | win => rfl
  | linux => exact (C39_normalize_path _).1
  | mac => exact (C39_normalize_path _).1

/-- The specification leaves no choice. -/
theorem RecordedPath.unique {pl : Platform} {h : Prop} {real : Str → Option Str} {comp : ByteSlice} {file : FileInfo} {p q : Str}
    (h1 : RecordedPath pl h real comp file p) (h2 : RecordedPath pl h real comp file q) : p = q := by
  obtain ⟨x, a1, a2, a3⟩ := h1
  obtain ⟨y, b1, b2, b3⟩ := h2
  have := a1.unique b1
  subst this
  by_cases hh : h
  · cases hr : real x with
    | none => exact ((a2 hh).2 hr).unique ((b2 hh).2 hr)
    | some r => rw [(a2 hh).1 r hr, (b2 hh).1 r hr]
  · rw [a3 hh, b3 hh]

theorem recordedPath_getPath (env : SrcEnv) (comp : ByteSlice) (file : FileInfo) :
    RecordedPath env.platform (env.canonicalize = true) env.canon comp file (SourceFiles.getPath env comp file) := by
  unfold SourceFiles.getPath
  refine ⟨env.platform.joinPaths (if (!env.platform.isAbsolutePath file.dir && !comp.bytes.isEmpty) = true then
      env.platform.joinPaths (SourceFiles.pathToString comp.bytes) file.dir else file.dir) file.name, ⟨?_, ?_⟩, ?_, ?_⟩
  · intro h
    rcases h with h | h
    · rw [(C40_is_absolute env.platform file.dir).mpr h]
      simpa using C40_join_paths env.platform file.dir file.name
    · rw [h]
      simpa using C40_join_paths env.platform file.dir file.name
  · intro ha hc
    have ha' : env.platform.isAbsolutePath file.dir = false := by
      rw [Bool.eq_false_iff]; exact fun h => ha ((C40_is_absolute _ _).mp h)
    have hc' : comp.bytes.isEmpty = false := by simpa using hc
    simp only [ha', hc', Bool.not_false, Bool.and_self, if_true]
    exact ⟨_, _, pathToString_textOf _, C40_join_paths _ _ _, C40_join_paths _ _ _⟩
  · intro h
    simp only [h, if_true]
    constructor
    · intro r hr; rw [hr]; rfl
    · intro hn; rw [hn, Option.getD_none]; exact resolved_normalizeHere _ _
  · intro h
    simp only [h]
    rfl

theorem records_iff {env : SrcEnv} {comp : ByteSlice} {file : FileInfo} {p : Str} :
    env.Records comp file p ↔ p = SourceFiles.getPath env comp file :=
  ⟨fun h => h.unique (recordedPath_getPath env comp file), fun h => h ▸ recordedPath_getPath env comp file⟩

theorem recordedPath_iff (env : SrcEnv) (comp : ByteSlice) (file : FileInfo) (p : Str) :
    RecordedPath env.platform (env.canonicalize = true) env.canon comp file p ↔ p = SourceFiles.getPath env comp file :=
  ⟨fun h => h.unique (recordedPath_getPath env comp file), fun h => h ▸ recordedPath_getPath env comp file⟩

end DumpSyms
