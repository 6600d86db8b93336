import Verif.Proof.WinPath
import Verif.Props.Path
import Verif.Spec.Source
/-!
# C104, C105: the symbol store and path normalization on Windows
-/
namespace DumpSyms
namespace WinPath

/-! Cases of the tests of `std::path` (`test_push`, `test_pop`, `test_decompositions_windows`, `test_set_extension`). -/

example : push (str% "") (str% "foo") = str% "foo" := by decide
example : push (str% "foo") (str% "") = str% "foo\\" := by decide
example : push (str% "foo/") (str% "bar") = str% "foo/bar" := by decide
example : push (str% "foo/") (str% "/bar") = str% "/bar" := by decide
example : push (str% "c:\\foo") (str% "\\bar") = str% "c:\\bar" := by decide
example : push (str% "C:") (str% "foo") = str% "C:foo" := by decide
example : push (str% "C:a") (str% "C:\\b.txt") = str% "C:\\b.txt" := by decide
example : push (str% "\\\\server\\share\\foo") (str% "bar") = str% "\\\\server\\share\\foo\\bar" := by decide
example : push (str% "\\\\server\\share\\foo") (str% "C:baz") = str% "C:baz" := by decide
example : push (str% "\\\\?\\C:\\a\\b") (str% "C:c\\d") = str% "C:c\\d" := by decide
example : push (str% "\\\\?\\UNC\\server\\share\\foo") (str% "\\bar") = str% "\\\\?\\UNC\\server\\share\\bar" := by decide
example : push (str% "\\\\.\\foo\\bar") (str% "\\baz") = str% "\\\\.\\foo\\baz" := by decide
example : push (str% "\\\\?\\C:\\bar") (str% "../foo") = str% "\\\\?\\C:\\foo" := by decide
example : push (str% "\\\\?\\C:\\bar") (str% "../../foo") = str% "\\\\?\\C:\\foo" := by decide
example : push (str% "\\\\?\\C:\\") (str% "foo/bar") = str% "\\\\?\\C:\\foo\\bar" := by decide
example : push (str% "\\\\?\\C:") (str% "../../foo") = str% "\\\\?\\C:\\foo" := by decide
example : push (str% "\\\\?\\A:\\x\\y") (str% "/foo") = str% "\\\\?\\A:\\foo" := by decide
example : push (str% "\\\\?\\A:") (str% "..\\foo\\.") = str% "\\\\?\\A:\\foo" := by decide
example : push (str% "\\\\?\\A:\\x\\y") (str% "") = str% "\\\\?\\A:\\x\\y\\" := by decide
example : pop (str% "C:\\a\\b") = str% "C:\\a" := by decide
example : pop (str% "C:\\a") = str% "C:\\" := by decide
example : pop (str% "C:\\") = str% "C:\\" := by decide
example : pop (str% "C:a\\b") = str% "C:a" := by decide
example : pop (str% "C:a") = str% "C:" := by decide
example : pop (str% "C:") = str% "C:" := by decide
example : pop (str% "\\\\server\\share\\a\\b") = str% "\\\\server\\share\\a" := by decide
example : pop (str% "\\\\server\\share\\a") = str% "\\\\server\\share\\" := by decide
example : pop (str% "\\\\server\\share") = str% "\\\\server\\share" := by decide
example : pop (str% "\\\\?\\a\\b\\c") = str% "\\\\?\\a\\b" := by decide
example : pop (str% "\\\\?\\a\\b") = str% "\\\\?\\a\\" := by decide
example : pop (str% "\\\\?\\UNC\\server\\share\\a") = str% "\\\\?\\UNC\\server\\share\\" := by decide
example : pop (str% "\\\\.\\a\\b") = str% "\\\\.\\a\\" := by decide
example : pop (str% "\\\\.\\a") = str% "\\\\.\\a" := by decide
example : pop (str% "\\\\?\\a\\b\\") = str% "\\\\?\\a\\" := by decide
example : parsePrefix (str% "//?/a/b") = some (.unc (str% "?") (str% "a")) := by decide
example : parsePrefix (str% "\\\\.\\a/b") = some (.deviceNs (str% "a")) := by decide
example : components (str% "\\\\?\\C:\\.\\x/y") = [.pre (str% "\\\\?\\C:"), .rootDir, .curDir, .normal (str% "x/y")] := by decide
example : components (str% "\\\\server\\share") = [.pre (str% "\\\\server\\share"), .rootDir] := by decide
example : components (str% "c:foo/./../x") = [.pre (str% "c:"), .normal (str% "foo"), .parentDir, .normal (str% "x")] := by decide
example : components (str% ".\\a") = [.curDir, .normal (str% "a")] := by decide
example : setExtension (str% "C:\\a.b\\x.pd_\\") (str% "pdb") = str% "C:\\a.b\\x.pdb" := by decide
example : setExtension (str% "C:x.pd_") (str% "pdb") = str% "C:x.pdb" := by decide

end WinPath

namespace WinHost
open WinPath

/-! ### C105: normalization -/

theorem body_comps (p : Str) (hv : verbatim p = false) (hd : ∀ c, WinPath.Comp.normal c ∈ WinPath.components p → ¬ DriveLike c) :
    ∀ c ∈ body (sepOf p) (verbatim p) (p.drop (lenBeforeBody p)), c = .parentDir ∨ ∃ s, c = .normal s ∧ WinProper s := by
  intro c hc
  have hc' : c ∈ WinPath.components p := by unfold WinPath.components; exact List.mem_append_right _ hc
  unfold body at hc
  rw [hv] at hc
  have hsep : sepOf p = isSep := by unfold sepOf; rw [hv]; rfl
  rw [hsep] at hc
  obtain ⟨w, hw, hs⟩ := List.mem_filterMap.mp hc
  have hns := splitOn_mem_no_sep _ _ w hw
  unfold single at hs
  split at hs
  · cases hs
  · rename_i h1
    split at hs
    · cases hs; exact .inl rfl
    · rename_i h2
      split at hs
      · cases hs
      · rename_i h3
        cases hs
        refine .inr ⟨w, rfl, h3, ⟨?_, ?_⟩, h1, h2, hd w hc'⟩
        · intro h; exact absurd (hns _ h) (by decide)
        · intro h; exact absurd (hns _ h) (by decide)

theorem fold_names {raw : Str} {pre : Option Prefix} {root : Bool} (a : Anchor raw pre root) (l : List WinPath.Comp)
    (hl : ∀ c ∈ l, c = .parentDir ∨ ∃ s, c = .normal s ∧ WinProper s) (st : List Str) (hst : ∀ c ∈ st, WinProper c) :
    l.foldl normalizeStep (renderWin raw root st) = renderWin raw root (l.foldl winResolveStep st) ∧
      ∀ c ∈ l.foldl winResolveStep st, WinProper c := by
  induction l generalizing st with
  | nil => exact ⟨rfl, hst⟩
  | cons c l ih =>
    rw [List.foldl_cons, List.foldl_cons]
    rcases hl c (by simp) with rfl | ⟨s, rfl, hs⟩
    · simp only [normalizeStep, winResolveStep]
      rw [a.pop hst]
      exact ih (fun c hc => hl c (by simp [hc])) _ (fun c hc => hst c (List.dropLast_subset _ hc))
    · simp only [normalizeStep, winResolveStep]
      rw [a.push hst hs]
      refine ih (fun c hc => hl c (by simp [hc])) _ (fun c hc => ?_)
      rcases List.mem_append.mp hc with hc | hc
      · exact hst c hc
      · rw [List.mem_singleton] at hc; rw [hc]; exact hs

theorem winResolve_none (st : List Str) (l : List WinPath.Comp) (h : ∀ c ∈ l, c = .curDir ∨ ∃ r, c = .pre r) : l.foldl winResolveStep st = st := by
  induction l with
  | nil => rfl
  | cons c l ih =>
    rw [List.foldl_cons]
    have : winResolveStep st c = st := by rcases h c (by simp) with rfl | ⟨r, rfl⟩ <;> rfl
    rw [this]
    exact ih (fun c hc => h c (by simp [hc]))

theorem push_root {raw : Str} {q : Prefix} (h : parsePrefix raw = some q) (hv : q.isVerbatim = false) (hl : q.len = raw.length) :
    push raw ['\\'] = raw ++ ['\\'] := by
  have h1 : parsePrefix ['\\'] = none := by decide
  have h2 : WinPath.hasRoot ['\\'] = true := by decide
  unfold push
  have hab : WinPath.isAbs ['\\'] = false := by decide
  have hvr : verbatim raw = false := by unfold verbatim; rw [h]; exact hv
  have hpl : prefixLen raw = raw.length := by unfold prefixLen; rw [h]; exact hl
  simp only [hab, h1, h2, hvr, hpl, List.take_length, Option.isSome_none, Bool.or_self, Bool.false_eq_true, if_false, Bool.false_and, if_true]

theorem parseDrive_some {p : Str} {d : Char} (h : parseDrive p = some d) : ∃ x r, p = x :: ':' :: r ∧ x.isAlpha = true ∧ d = x.toUpper := by
  unfold parseDrive at h
  split at h
  · rename_i x r
    split at h
    · rename_i hx; cases h; exact ⟨x, r, rfl, hx, rfl⟩
    · cases h
  · cases h

theorem parsePrefix_disk {p : Str} {q : Prefix} (h : parsePrefix p = some q) (hd : q.isDrive = true) :
    ∃ x r, p = x :: ':' :: r ∧ x.isAlpha = true ∧ q = .disk x.toUpper := by
  unfold parsePrefix at h
  split at h
  · exfalso
    split at h
    · split at h
      · cases h; cases hd
      · split at h <;> (cases h; cases hd)
    · split at h
      · cases h; cases hd
      · simp only at h
        split at h <;> cases h
        cases hd
  · cases hp : parseDrive p with
    | none => rw [hp] at h; cases h
    | some d =>
      rw [hp] at h
      cases h
      obtain ⟨x, r, h1, h2, h3⟩ := parseDrive_some hp
      exact ⟨x, r, h1, h2, by rw [h3]⟩

/-- The first part of the theorem, with the facts the others need. -/
theorem normalize_render (p : Str) (hv : verbatim p = false) (hd : ∀ c, WinPath.Comp.normal c ∈ WinPath.components p → ¬ DriveLike c) :
    Anchor (p.take (prefixLen p)) (parsePrefix p) (hasRoot p) ∧ (∀ c ∈ winResolve (WinPath.components p), WinProper c) ∧
    normalizePath p = renderWin (p.take (prefixLen p)) (hasRoot p) (winResolve (WinPath.components p)) := by
  have hb := body_comps p hv hd
  cases hq : parsePrefix p with
  | none =>
    have hl : prefixLen p = 0 := by unfold prefixLen; rw [hq]; rfl
    have hr : hasRoot p = hasPhysicalRoot p := by unfold hasRoot; rw [hq]; simp
    rw [hl, List.take_zero]
    have a := anchor_none (hasRoot p)
    obtain ⟨f1, f2⟩ := fold_names a _ hb [] (by simp)
    have hpc : prefixComp p = [] := by unfold prefixComp; rw [hq]; rfl
    have hres : winResolve (WinPath.components p) = (body (sepOf p) (verbatim p) (p.drop (lenBeforeBody p))).foldl winResolveStep [] := by
      unfold winResolve WinPath.components
      rw [hpc, List.nil_append, List.foldl_append]
      congr 1
      unfold start
      split
      · rfl
      · rw [hq]; simp only; split <;> rfl
    have hnorm : normalizePath p = (body (sepOf p) (verbatim p) (p.drop (lenBeforeBody p))).foldl normalizeStep (renderWin [] (hasRoot p) []) := by
      have hfold : normalizePath p = (WinPath.components p).foldl normalizeStep [] := by
        unfold normalizePath
        split
        · rename_i raw rest e
          exfalso
          have hm : WinPath.Comp.pre raw ∈ WinPath.components p := by rw [e]; simp
          unfold WinPath.components at hm
          rw [hpc, List.nil_append] at hm
          rcases List.mem_append.mp hm with hm | hm
          · unfold start at hm
            split at hm
            · simp at hm
            · rw [hq] at hm; simp only at hm; split at hm <;> simp at hm
          · rcases hb _ hm with h | ⟨s, h, _⟩ <;> cases h
        · rfl
      rw [hfold]
      unfold WinPath.components
      rw [hpc, List.nil_append, List.foldl_append]
      congr 1
      unfold start
      rw [hr]
      split
      · rename_i h; rw [h]; decide
      · rename_i h
        rw [Bool.not_eq_true] at h
        rw [h, hq]
        simp only
        split <;> rfl
    refine ⟨a, ?_, ?_⟩
    · rw [hres]; exact f2
    · rw [hres, hnorm]; exact f1
  | some q =>
    have hqv : q.isVerbatim = false := by unfold verbatim at hv; rw [hq] at hv; exact hv
    have hl : prefixLen p = q.len := by unfold prefixLen; rw [hq]; rfl
    rw [hl]
    -- the root
    obtain ⟨a, hraw, hlen, hstart⟩ : Anchor (p.take q.len) (some q) (hasRoot p) ∧ parsePrefix (p.take q.len) = some q ∧
        q.len = (p.take q.len).length ∧ start p = if hasRoot p then [.rootDir] else [] := by
      cases hqd : q.isDrive with
      | true =>
        obtain ⟨x, r, rfl, hx, rfl⟩ := parsePrefix_disk hq hqd
        have a := anchor_drive x hx (hasRoot (x :: ':' :: r))
        refine ⟨by simpa [Prefix.len] using a, ?_, by simp [Prefix.len], ?_⟩
        · have := (anchor_drive x hx false).parse [] (by simp)
          simpa [renderWin, joinBack, Prefix.len] using this
        · unfold start hasRoot
          rw [hq]
          simp [Prefix.hasImplicitRoot, Prefix.isDrive]
      | false =>
        have hroot : hasRoot p = true := by unfold hasRoot; rw [hq]; simp [Prefix.hasImplicitRoot, hqd]
        obtain ⟨h1, h2⟩ := parsePrefix_again hq hqv hqd (t := []) (.inl rfl)
        rw [hroot]
        refine ⟨anchor_other hq hqv hqd, by simpa using h1, h2.symm, ?_⟩
        unfold start
        rw [hq]
        simp [Prefix.hasImplicitRoot, hqd, hqv]
    obtain ⟨f1, f2⟩ := fold_names a _ hb [] (by simp)
    have hpc : prefixComp p = [.pre (p.take q.len)] := by unfold prefixComp; rw [hq, hl]; rfl
    have hres : winResolve (WinPath.components p) = (body (sepOf p) (verbatim p) (p.drop (lenBeforeBody p))).foldl winResolveStep [] := by
      unfold winResolve WinPath.components
      rw [hpc, hstart, List.foldl_append]
      cases hasRoot p <;> rfl
    have hnorm : normalizePath p = (body (sepOf p) (verbatim p) (p.drop (lenBeforeBody p))).foldl normalizeStep
        (renderWin (p.take q.len) (hasRoot p) []) := by
      have hc : WinPath.components p = .pre (p.take q.len) :: (start p ++ body (sepOf p) (verbatim p) (p.drop (lenBeforeBody p))) := by
        unfold WinPath.components
        rw [hpc]
        rfl
      unfold normalizePath
      rw [hc]
      simp only
      rw [List.foldl_append, hstart]
      congr 1
      cases hasRoot p with
      | false => simp [renderWin, joinBack]
      | true =>
        simp only [if_true, List.foldl_cons, List.foldl_nil, normalizeStep]
        rw [push_root hraw hqv hlen]
        simp [renderWin, joinBack]
    refine ⟨a, ?_, ?_⟩
    · rw [hres]; exact f2
    · rw [hres, hnorm]; exact f1

/-- **C105 (partial).** On Windows, normalizing a path that is not verbatim (`\\\\?\\...`), and none of whose names starts with a drive, yields the path
with the same prefix and root whose names are obtained by resolving `.` and `..` lexically; an absolute path stays absolute, and normalizing twice
changes nothing.  Missing: verbatim paths, and names that start with a drive (false, see `C105_witness`). -/
theorem C105_normalize_partial (p : Str) (hv : verbatim p = false) (hd : ∀ c, WinPath.Comp.normal c ∈ WinPath.components p → ¬ DriveLike c) :
    normalizePath p = renderWin (p.take (prefixLen p)) (hasRoot p) (winResolve (WinPath.components p)) ∧
    WinPath.components (normalizePath p) =
      prefixComp p ++ (if hasRoot p then [WinPath.Comp.rootDir] else []) ++ (winResolve (WinPath.components p)).map WinPath.Comp.normal ∧
    parsePrefix (normalizePath p) = parsePrefix p ∧ hasRoot (normalizePath p) = hasRoot p ∧ isAbs (normalizePath p) = isAbs p ∧
    normalizePath (normalizePath p) = normalizePath p := by
  obtain ⟨a, hp, e⟩ := normalize_render p hv hd
  have hc := a.components hp
  have hpp := a.parse _ hp
  have hr := a.hasRoot hp
  have hl := a.prefixLen hp
  have hvv := a.verbatim hp
  rw [← e] at hc hpp hr hl hvv
  have hc' : WinPath.components (normalizePath p) =
      prefixComp p ++ (if hasRoot p then [WinPath.Comp.rootDir] else []) ++ (winResolve (WinPath.components p)).map WinPath.Comp.normal := hc
  refine ⟨e, hc', hpp, hr, by unfold isAbs; rw [hr, hpp], ?_⟩
  obtain ⟨_, _, e2⟩ := normalize_render (normalizePath p) hvv (by
    intro c hm
    rw [hc'] at hm
    simp only [List.mem_append, List.mem_map, WinPath.Comp.normal.injEq, exists_eq_right] at hm
    rcases hm with (hm | hm) | hm
    · unfold prefixComp at hm; split at hm <;> simp at hm
    · split at hm <;> simp at hm
    · exact (hp c hm).2.2.2.2)
  have hw : winResolve (WinPath.components (normalizePath p)) = winResolve (WinPath.components p) := by
    rw [hc']
    generalize winResolve (WinPath.components p) = names
    unfold winResolve
    rw [List.foldl_append, List.foldl_append]
    have h1 : (if hasRoot p then [WinPath.Comp.rootDir] else []).foldl winResolveStep ((prefixComp p).foldl winResolveStep []) = [] := by
      unfold prefixComp
      split <;> split <;> rfl
    rw [h1]
    have : ∀ (l st : List Str), (l.map WinPath.Comp.normal).foldl winResolveStep st = st ++ l := by
      intro l
      induction l with
      | nil => simp
      | cons x l ih => intro st; rw [List.map_cons, List.foldl_cons, ih]; simp [winResolveStep]
    rw [this, List.nil_append]
  rw [e2, hw, hr, hl]
  have ht : (normalizePath p).take (p.take (prefixLen p)).length = p.take (prefixLen p) := by
    rw [e, renderWin, List.append_assoc, List.take_left]
  rw [ht]
  exact e.symm

example : normalizePath (str% "c:/a/./b\\..\\..\\..\\c/") = str% "c:\\c" := by decide
example : normalizePath (str% "\\\\server/share/x\\..\\y") = str% "\\\\server/share\\y" := by decide
example : DriveLike (str% "a:b") := ⟨'a', str% "b", rfl, rfl⟩

/-- **C105 is false**: a name that starts with a drive replaces all that came before it, so a path from the root becomes one relative to the current
directory of a drive. -/
theorem C105_witness : hasRoot (str% "\\x\\C:\\y") = true ∧ normalizePath (str% "\\x\\C:\\y") = str% "C:y" ∧ hasRoot (str% "C:y") = false := by
  decide

/-! ## C104: the place of a module in the store -/

theorem _root_.DumpSyms.WinProper.proper {c : Str} (h : WinProper c) : ProperComp c := ⟨h.1, h.2.1.1, h.2.2.1, h.2.2.2.1⟩

theorem components_winProper {c : Str} (h : WinProper c) : WinPath.components c = [.normal c] := by
  have := (anchor_none false).components (cs := [c]) (by simpa using h)
  simpa [renderWin, joinBack] using this

theorem fileName_winProper {c : Str} (h : WinProper c) : WinPath.fileName c = some c := by
  unfold WinPath.fileName
  rw [components_winProper h]
  rfl

theorem setExtension_winProper {b a ext : Str} (hb : b ≠ []) (ha : '.' ∉ a) (h : WinProper (b ++ '.' :: a)) (he : ext ≠ []) :
    WinPath.setExtension (b ++ '.' :: a) ext = b ++ '.' :: ext := by
  have hl : lenBeforeBody (b ++ '.' :: a) = 0 := by
    have := (anchor_none false).lenBeforeBody (cs := [b ++ '.' :: a]) (by simpa using h)
    simpa [renderWin, joinBack] using this
  have hs : sepOf (b ++ '.' :: a) = isSep := by
    have := (anchor_none false).sepOf (cs := [b ++ '.' :: a]) (by simpa using h)
    simpa [renderWin, joinBack] using this
  have ht : trimmedBody (b ++ '.' :: a) = b ++ '.' :: a := by
    unfold trimmedBody
    rw [hl, hs, List.drop_zero]
    have := trimRight_joinBack (cs := [b ++ '.' :: a]) (by simpa using h) (verbatim (b ++ '.' :: a)) (b ++ '.' :: a).length
    simpa [joinBack] using this
  unfold WinPath.setExtension WinPath.fileStem
  rw [fileName_winProper h]
  simp only [rsplitDot_append b a ha, if_neg hb, if_neg he, hl, ht, List.take_zero, List.nil_append]
  simp

/-- For a proper name the directory is the one of Unix. -/
theorem getBase_winProper {name : Str} (h : WinProper name) : getBase name = Utils.getBase name := by
  unfold getBase Utils.getBase WinPath.extension Path.extension
  rw [fileName_winProper h, fileName_proper _ h.proper]
  rcases split_last_dot name with hd | ⟨b, a, rfl, ha⟩
  · simp only [rsplitDot_none _ hd]
  · simp only [rsplitDot_append b a ha]
    by_cases hb : b = []
    · simp only [hb, if_true]
    · simp only [if_neg hb]
      rw [setExtension_winProper hb ha h (by simp), setExtension_winProper hb ha h (by simp), setExtension_winProper hb ha h (by simp),
        setExtension_proper b a _ hb ha h.proper (by simp), setExtension_proper b a _ hb ha h.proper (by simp),
        setExtension_proper b a _ hb ha h.proper (by simp)]

/-- A name that does not start with a drive and one with the same first two characters. -/
theorem not_drive_append {s t u : Str} (h : ¬ DriveLike (s ++ '.' :: t)) : ¬ DriveLike (s ++ '.' :: u) := by
  rintro ⟨d, r, e, hd⟩
  match s with
  | [] => simp only [List.nil_append, List.cons.injEq] at e; rw [← e.1] at hd; exact absurd hd (by decide)
  | [x] => simp only [List.cons_append, List.nil_append, List.cons.injEq] at e; exact absurd e.2.1 (by decide)
  | x :: y :: s =>
    simp only [List.cons_append, List.cons.injEq] at e
    exact h ⟨x, s ++ '.' :: t, by simp [e.2.1], by rw [e.1]; exact hd⟩

theorem drive_append {s t : Str} (h : DriveLike s) : DriveLike (s ++ t) := by
  obtain ⟨d, r, rfl, hd⟩ := h
  exact ⟨d, r ++ t, rfl, hd⟩

theorem storeDir_winProper {name d : Str} (h : StoreDirName name d) (hn : WinProper name) : WinProper d := by
  obtain ⟨h1, h2, h3, h4⟩ := storeDir_proper h hn.proper
  refine ⟨h1, ⟨h2, ?_⟩, h3, h4, ?_⟩
  · have := hn.2.1.2
    cases h with
    | expand stem ext new _ _ hm =>
      simp at this hm ⊢
      rcases hm with ⟨_, rfl⟩ | ⟨_, rfl⟩ | ⟨_, rfl⟩ <;> exact ⟨this.1, by decide⟩
    | keep => exact this
  · have := hn.2.2.2.2
    cases h with
    | expand stem ext new _ _ hm => exact not_drive_append this
    | keep => exact this

theorem storeFile_winProper {name f : Str} (h : StoreFileName name f) (hn : NoSep name) (hd : ¬ DriveLike name) : WinProper f := by
  obtain ⟨h1, h2, h3, h4⟩ := storeFile_proper h hn.1
  refine ⟨h1, ⟨h2, ?_⟩, h3, h4, ?_⟩
  · have := hn.2
    cases h with
    | pdb stem ext _ _ => simp at this ⊢; exact this.1
    | other => simp at this ⊢; exact this
  · cases h with
    | pdb stem ext _ _ => exact not_drive_append hd
    | other =>
      rintro ⟨d, r, e, hx⟩
      match name with
      | [] => simp only [List.nil_append, List.cons.injEq] at e; exact absurd e.2.1 (by decide)
      | [x] => simp only [List.cons_append, List.nil_append, List.cons.injEq] at e; exact absurd e.2.1 (by decide)
      | x :: y :: s =>
        simp only [List.cons_append, List.cons.injEq] at e
        exact hd ⟨x, s, by simp [e.2.1], by rw [e.1]; exact hx⟩

theorem storeFile_drive {name f : Str} (h : StoreFileName name f) (hd : DriveLike name) : DriveLike f := by
  cases h with
  | pdb stem ext _ _ =>
    exact Classical.byContradiction fun hc => not_drive_append (t := str% "sym") hc hd
  | other => exact drive_append hd

/-- The path of a module in the store. -/
theorem getPathForSym_win {name id : Str} (hn : WinProper name) (hid : WinProper id) :
    ∃ d f, StoreDirName name d ∧ StoreFileName name f ∧ WinProper d ∧ WinProper f ∧ getPathForSym name id = joinBack [d, id, f] := by
  have hb := getBase_spec name hn.proper
  have hf := symFileName_spec name
  rw [← getBase_winProper hn] at hb
  have hd' := storeDir_winProper hb hn
  have hf' := storeFile_winProper hf hn.2.1 hn.2.2.2.2
  refine ⟨_, _, hb, hf, hd', hf', ?_⟩
  have h1 := (anchor_none false).push (cs := [getBase name]) (by simpa using hd') hid
  have h2 := (anchor_none false).push (cs := [getBase name, id]) (by simp [hd', hid]) hf'
  simp only [renderWin, List.nil_append, Bool.false_eq_true, if_false, List.cons_append] at h1 h2
  unfold getPathForSym
  have e : joinBack [getBase name] = getBase name := rfl
  rw [e] at h1
  rw [h1, h2]

/-- When `push` puts no separator. -/
theorem needSep_iff {dir : Str} : (((dir.getLast?.map (fun c => !isSep c)).getD false &&
    !(0 < prefixLen dir && prefixLen dir == dir.length && ((parsePrefix dir).map Prefix.isDrive).getD false)) = false) ↔ NoSepAfter dir := by
  by_cases hd0 : dir = []
  · subst hd0
    exact ⟨fun _ => .inl rfl, fun _ => rfl⟩
  obtain ⟨s, x, rfl⟩ := eq_snoc hd0
  rw [List.getLast?_append]
  simp only [List.getLast?_singleton, Option.some_or, Option.map_some, Option.getD_some]
  cases hx : isSep x with
  | true =>
    refine ⟨fun _ => .inr (.inl ⟨s, x, rfl, ?_⟩), fun _ => rfl⟩
    simpa [isSep] using hx
  | false =>
    simp only [Bool.not_false, Bool.true_and, Bool.not_eq_false', Bool.and_eq_true, decide_eq_true_eq, beq_iff_eq]
    constructor
    · rintro ⟨⟨_, hl⟩, hdr⟩
      cases hq : parsePrefix (s ++ [x]) with
      | none => rw [hq] at hdr; cases hdr
      | some q =>
        rw [hq] at hdr
        obtain ⟨y, r, e, hy, rfl⟩ := parsePrefix_disk hq hdr
        unfold prefixLen at hl
        rw [hq, e] at hl
        simp only [Option.map_some, Option.getD_some, Prefix.len, List.length_cons] at hl
        have : r = [] := List.length_eq_zero_iff.mp (by omega)
        exact .inr (.inr ⟨y, by rw [e, this], hy⟩)
    · rintro (h0 | ⟨s', x', h0, hx'⟩ | ⟨y, h0, hy⟩)
      · simp at h0
      · have := List.append_inj_right' h0 rfl
        simp only [List.cons.injEq, and_true] at this
        subst this
        rcases hx' with rfl | rfl <;> cases hx
      · obtain ⟨d, hd⟩ := parsePrefix_drive (c := s ++ [x]) ⟨y, [], h0, hy⟩
        unfold prefixLen
        rw [hd, h0]
        simp [Prefix.len, Prefix.isDrive]

theorem push_names {dir : Str} {cs : List Str} (hne : cs ≠ []) (h : ∀ c ∈ cs, WinProper c) :
    (verbatim dir = false → (NoSepAfter dir → push dir (joinBack cs) = dir ++ joinBack cs) ∧
      (¬ NoSepAfter dir → push dir (joinBack cs) = dir ++ '\\' :: joinBack cs)) ∧
    (verbatim dir = true → push dir (joinBack cs) = verbatimText false (WinPath.components dir ++ cs.map .normal)) := by
  have a := anchor_none false
  have e : renderWin [] false cs = joinBack cs := by simp [renderWin]
  have hp := a.parse _ h
  have hr := a.hasRoot h
  have hc := a.components h
  rw [e] at hp hr hc
  have hj : joinBack cs ≠ [] := by
    obtain ⟨x, hx, _⟩ := joinBack_getLast hne h
    intro hj; rw [hj] at hx; cases hx
  have hneed := needSep_iff (dir := dir)
  unfold push
  simp only [isAbs, hr, hp, Bool.false_and, Option.isSome_none, Bool.or_false, Bool.false_eq_true, if_false]
  constructor
  · intro hv
    rw [hv]
    simp only [Bool.false_and, Bool.false_eq_true, if_false]
    constructor
    · intro hs
      rw [hneed.mpr hs]
      simp
    · intro hs
      have := mt hneed.mp hs
      rw [Bool.not_eq_false] at this
      rw [this]
      simp
  · intro hv
    rw [hv]
    simp only [Bool.true_and, ne_eq, hj, not_false_eq_true, decide_true, if_true]
    congr 1
    rw [hc]
    have key : ∀ (l : List Str) (buf : List WinPath.Comp), (l.map WinPath.Comp.normal).foldl verbatimStep buf = buf ++ l.map .normal := by
      intro l
      induction l with
      | nil => simp
      | cons x l ih => intro buf; rw [List.map_cons, List.foldl_cons, ih]; simp [verbatimStep]
    simpa using key cs _

/-- The verbatim path written with single `\`. -/
theorem verbatimText_normals (b : Bool) (l : List WinPath.Comp) (hl : l ≠ []) (cs : List Str) (hne : cs ≠ []) :
    verbatimText b (l ++ cs.map .normal) = verbatimText b l ++ (if l.getLast? = some .rootDir then [] else ['\\']) ++ joinBack cs := by
  have key : ∀ (cs : List Str) (b : Bool), cs ≠ [] → verbatimText b (cs.map .normal) = (if b then ['\\'] else []) ++ joinBack cs := by
    intro cs
    induction cs with
    | nil => intro _ h; exact absurd rfl h
    | cons c cs ih =>
      intro b _
      by_cases hc : cs = []
      · subst hc; cases b <;> simp [verbatimText, Comp.text, joinBack]
      · rw [List.map_cons, verbatimText, ih _ hc, joinBack_cons _ _ hc]
        cases b <;> simp [Comp.text]
  induction l generalizing b with
  | nil => exact absurd rfl hl
  | cons c l ih =>
    by_cases hc : l = []
    · subst hc
      rw [List.singleton_append, verbatimText, key _ _ hne, verbatimText, verbatimText]
      cases hr : decide (c ≠ .rootDir) <;> simp_all
    · rw [List.cons_append, verbatimText, ih _ hc, verbatimText, List.getLast?_cons]
      obtain ⟨t, x, rfl⟩ := eq_snoc hc
      simp

/-- **C104 (partial).** On Windows, the file of a module whose name and identifier are usable as names is `NAME\\ID\\BASE.sym` in the store: below the
directory, after one separator if there is none at its end and it is not a bare drive.  In a verbatim directory (`\\\\?\\...`) the path of the
directory is written again with single separators.  Missing: the other names, see `C104_drive`, `C104_parent` and `C104_separators`. -/
theorem C104_store_partial (dir name id : Str) (hn : WinProper name) (hid : WinProper id) :
    ∃ d f, StoreDirName name d ∧ StoreFileName name f ∧ WinProper d ∧ WinProper f ∧
      (verbatim dir = false → NoSepAfter dir → push dir (getPathForSym name id) = dir ++ (d ++ '\\' :: (id ++ '\\' :: f))) ∧
      (verbatim dir = false → ¬ NoSepAfter dir → push dir (getPathForSym name id) = dir ++ '\\' :: (d ++ '\\' :: (id ++ '\\' :: f))) ∧
      (verbatim dir = true → push dir (getPathForSym name id) =
        verbatimText false (WinPath.components dir) ++ (if (WinPath.components dir).getLast? = some .rootDir then [] else ['\\']) ++
          (d ++ '\\' :: (id ++ '\\' :: f))) := by
  obtain ⟨d, f, h1, h2, h3, h4, e⟩ := getPathForSym_win hn hid
  have hj : d ++ '\\' :: (id ++ '\\' :: f) = joinBack [d, id, f] := rfl
  obtain ⟨p1, p2⟩ := push_names (dir := dir) (cs := [d, id, f]) (by simp) (by simp [h3, h4, hid])
  refine ⟨d, f, h1, h2, h3, h4, ?_⟩
  rw [e, hj]
  refine ⟨fun hv => (p1 hv).1, fun hv => (p1 hv).2, fun hv => ?_⟩
  rw [p2 hv, verbatimText_normals _ _ _ _ (by simp)]
  unfold WinPath.components prefixComp
  unfold verbatim at hv
  cases hq : parsePrefix dir with
  | none => rw [hq] at hv; cases hv
  | some q => simp

/-- **C104, two modules.** Two modules in one place of a store have the same identifier, directory and file name. -/
theorem C104_distinct {dir n1 n2 id1 id2 : Str} (h1 : WinProper n1) (h2 : WinProper n2) (hi1 : WinProper id1) (hi2 : WinProper id2)
    (h : push dir (getPathForSym n1 id1) = push dir (getPathForSym n2 id2)) :
    id1 = id2 ∧ (∀ d, StoreDirName n1 d ↔ StoreDirName n2 d) ∧ ∀ f, StoreFileName n1 f ↔ StoreFileName n2 f := by
  obtain ⟨d1, f1, a1, b1, c1, e1, g1⟩ := getPathForSym_win h1 hi1
  obtain ⟨d2, f2, a2, b2, c2, e2, g2⟩ := getPathForSym_win h2 hi2
  rw [g1, g2] at h
  have w1 : ∀ c ∈ [d1, id1, f1], WinProper c := by simp [c1, e1, hi1]
  have w2 : ∀ c ∈ [d2, id2, f2], WinProper c := by simp [c2, e2, hi2]
  obtain ⟨p1, p2⟩ := push_names (dir := dir) (by simp) w1
  obtain ⟨q1, q2⟩ := push_names (dir := dir) (by simp) w2
  have hj : joinBack [d1, id1, f1] = joinBack [d2, id2, f2] := by
    cases hv : verbatim dir with
    | false =>
      by_cases hs : NoSepAfter dir
      · rw [(p1 hv).1 hs, (q1 hv).1 hs] at h
        exact List.append_cancel_left h
      · rw [(p1 hv).2 hs, (q1 hv).2 hs] at h
        exact (List.cons.inj (List.append_cancel_left h)).2
    | true =>
      have hne : WinPath.components dir ≠ [] := by
        unfold WinPath.components prefixComp
        unfold verbatim at hv
        cases hq : parsePrefix dir with
        | none => rw [hq] at hv; cases hv
        | some q => simp
      rw [p2 hv, q2 hv, verbatimText_normals _ _ hne _ (by simp), verbatimText_normals _ _ hne _ (by simp)] at h
      exact List.append_cancel_left h
  have hl : [d1, id1, f1] = [d2, id2, f2] := by
    rw [← splitOn_joinBack _ (by simp) fun c hc => (w1 c hc).2.1, hj, splitOn_joinBack _ (by simp) fun c hc => (w2 c hc).2.1]
  simp only [List.cons.injEq, and_true] at hl
  obtain ⟨rfl, rfl, rfl⟩ := hl
  refine ⟨rfl, fun d => ⟨fun hd => ?_, fun hd => ?_⟩, fun f => ⟨fun hf => ?_, fun hf => ?_⟩⟩
  · rw [storeDir_unique hd a1]; exact a2
  · rw [storeDir_unique hd a2]; exact a1
  · rw [storeFile_unique hf b1]; exact b2
  · rw [storeFile_unique hf b2]; exact b1

/-- The recorded path of a source file that is not on the Windows machine it was compiled on (see C72). -/
theorem C105_recorded_partial (path p : Str) (hv : verbatim path = false)
    (hd : ∀ c, WinPath.Comp.normal c ∈ WinPath.components path → ¬ DriveLike c) :
    Resolved .win path p ↔ p = renderWin (path.take (prefixLen path)) (hasRoot path) (winResolve (WinPath.components path)) := by
  unfold Resolved
  rw [(C105_normalize_partial path hv hd).1]

example : Resolved .win (str% "c:\\build\\..\\src/a.c") (str% "c:\\src\\a.c") := by unfold Resolved; decide +kernel

/-- **C104 is false**: a name that starts with a drive takes the file out of the store, whatever its directory. -/
theorem C104_drive (dir name id : Str) (hn : DriveLike name) :
    ∃ f, StoreFileName name f ∧ push dir (getPathForSym name id) = f := by
  have hf := symFileName_spec name
  obtain ⟨d, hd⟩ := parsePrefix_drive (storeFile_drive hf hn)
  have hp : ∀ p, push p (Utils.symFileName name) = Utils.symFileName name := by
    intro p
    unfold push
    simp [hd]
  refine ⟨_, hf, ?_⟩
  unfold getPathForSym
  rw [hp, hp]

/-- So does `..`. -/
theorem C104_parent : push (str% "D:\\syms") (getPathForSym (str% "..") (str% "ID")) = str% "D:\\syms\\..\\ID\\...sym" := by decide

/-- And a name with separators: the name of an ELF library is taken from the file as it is. -/
theorem C104_separators : normalizePath (push (str% "D:\\syms") (getPathForSym (str% "a\\..\\..\\..\\b") (str% "ID"))) = str% "D:\\b.sym" := by
  decide +kernel

example : push (str% "D:\\syms") (getPathForSym (str% "xul.PD_") (str% "44E4EC8C2")) = str% "D:\\syms\\xul.pdb\\44E4EC8C2\\xul.PD_.sym" := by decide +kernel
example : push (str% "D:/syms/") (getPathForSym (str% "xul.pdb") (str% "44E4EC8C2")) = str% "D:/syms/xul.pdb\\44E4EC8C2\\xul.sym" := by decide +kernel
example : push (str% "\\\\?\\D:\\syms") (getPathForSym (str% "xul.pdb") (str% "1")) = str% "\\\\?\\D:\\syms\\xul.pdb\\1\\xul.sym" := by decide +kernel
example : push (str% "D:\\syms") (getPathForSym (str% "C:x.pdb") (str% "44E4EC8C2")) = str% "C:x.sym" := by decide +kernel
example : WinProper (str% "xul.PD_") := ⟨by decide, ⟨by decide, by decide⟩, by decide, by decide, by rintro ⟨d, r, h, _⟩; cases h⟩

end WinHost
end DumpSyms
