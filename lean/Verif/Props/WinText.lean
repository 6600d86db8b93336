import Verif.Props.WinHost
import Verif.Proof.WinVerbatim
/-!
# C104, C105: the same, with the texts of the paths written out, and for verbatim paths
-/
namespace DumpSyms
namespace WinHost
open WinPath

theorem winSep_eq : winSep = isSep := rfl
theorem verbatimSep_eq : verbatimSep = isVerbatimSep := rfl

/-- One piece of a text. -/
def pieceStep (st : List Str) (c : Str) : List Str :=
  if c = [] ∨ c = ['.'] then st else if c = ['.', '.'] then st.dropLast else st ++ [c]

theorem resolveNames_eq (sep : Char → Bool) (s : Str) : resolveNames sep s = (splitOn sep s).foldl pieceStep [] := rfl

theorem fold_body (sep : Char → Bool) (v : Bool) (s : Str) (st : List Str) :
    (body sep v s).foldl winResolveStep st = (splitOn sep s).foldl pieceStep st := by
  unfold body
  generalize splitOn sep s = l
  induction l generalizing st with
  | nil => rfl
  | cons c l ih =>
    rw [List.foldl_cons, List.filterMap_cons]
    by_cases h1 : c = ['.']
    · subst h1
      have e : pieceStep st ['.'] = st := by simp [pieceStep]
      cases v
      · simpa [single, e] using ih st
      · simpa [single, e, winResolveStep] using ih st
    · by_cases h2 : c = ['.', '.']
      · subst h2
        have e : pieceStep st ['.', '.'] = st.dropLast := by simp [pieceStep]
        have e' : single v ['.', '.'] = some .parentDir := by simp [single]
        simpa [e, e', winResolveStep] using ih _
      · by_cases h3 : c = []
        · subst h3
          have e : pieceStep st [] = st := by simp [pieceStep]
          have e' : single v [] = none := by simp [single]
          simpa [e, e'] using ih st
        · have e : pieceStep st c = st ++ [c] := by simp [pieceStep, h1, h2, h3]
          have e' : single v c = some (.normal c) := by simp [single, h1, h2, h3]
          simpa [e, e', winResolveStep] using ih _

theorem normals_pieces (sep : Char → Bool) (v : Bool) (s : Str) {c : Str} (h : WinPath.Comp.normal c ∈ body sep v s) : c ∈ splitOn sep s := by
  obtain ⟨w, hw, hs⟩ := List.mem_filterMap.mp h
  unfold single at hs
  split at hs
  · split at hs <;> cases hs
  · split at hs
    · cases hs
    · split at hs
      · cases hs
      · cases hs; exact hw

theorem startsSep_head {s : Str} (h : ¬ StartsSep s) : ∀ x, s.head? = some x → isSep x = false := by
  intro x hx
  cases s with
  | nil => cases hx
  | cons y s =>
    cases hx
    rw [← Bool.not_eq_true]
    exact fun h' => h ⟨_, s, rfl, h'⟩

theorem sep_norm {a : Char} (h : winSep a = true) : norm a = '\\' := by
  simp only [winSep, Bool.or_eq_true, beq_iff_eq] at h
  rcases h with rfl | rfl <;> rfl

theorem sep_not_alpha {a : Char} (h : winSep a = true) : a.isAlpha = false := by
  simp only [winSep, Bool.or_eq_true, beq_iff_eq] at h
  rcases h with rfl | rfl <;> decide

theorem not_norm {s : Str} (h : ¬ StartsSep s) (pat : Str) : strip ('\\' :: pat) s = none := strip_noSep (startsSep_head h)

/-- What is found of the parts of a path. -/
theorem parts_facts {p raw s : Str} {root : Bool} (h : WinParts p raw root s) :
    ∃ q : Option Prefix, parsePrefix p = q ∧ (q.map Prefix.len).getD 0 = raw.length ∧ (q.map Prefix.isVerbatim).getD false = false ∧
      hasRoot p = root ∧ p.take raw.length = raw ∧ (p.drop raw.length = s ∧ ¬ StartsSep s ∨ (∃ x, winSep x = true ∧ p.drop raw.length = x :: s) ∨
        p.drop raw.length = [] ∧ s = []) := by
  cases h with
  | plain _ hd hs =>
    have hp : parsePrefix p = none := parsePrefix_none (startsSep_head hs) hd
    refine ⟨none, hp, rfl, rfl, ?_, rfl, .inl ⟨rfl, hs⟩⟩
    unfold hasRoot hasPhysicalRoot prefixLen
    rw [hp]
    simp only [Option.map_none, Option.getD_none, List.drop_zero, Bool.or_false]
    cases hh : p.head? with
    | none => rfl
    | some x => simp [startsSep_head hs x hh]
  | rooted x _ hx hs =>
    have hp : parsePrefix (x :: s) = none := by
      have h1 : strip ['\\', '\\'] (x :: s) = none := by
        rw [Option.eq_none_iff_forall_ne_some]
        intro r hr
        exact absurd ((strip_cons.mp hr).2.symm.trans (not_norm hs [])) (by simp)
      have h2 : parseDrive (x :: s) = none := by
        unfold parseDrive
        split
        · rename_i e
          cases e
          simp [sep_not_alpha hx]
        · rfl
      unfold parsePrefix
      rw [h1, h2]
      rfl
    refine ⟨none, hp, rfl, rfl, ?_, rfl, .inr (.inl ⟨x, hx, rfl⟩)⟩
    unfold hasRoot hasPhysicalRoot prefixLen
    rw [hp]
    have : isSep x = true := hx
    simp [this]
  | drive d _ hd hs =>
    obtain ⟨d', hp⟩ := parsePrefix_drive (c := d :: ':' :: s) ⟨d, s, rfl, hd⟩
    refine ⟨_, hp, rfl, rfl, ?_, rfl, .inl ⟨rfl, hs⟩⟩
    unfold hasRoot hasPhysicalRoot prefixLen
    rw [hp]
    simp only [Option.map_some, Option.getD_some, Prefix.len, Prefix.hasImplicitRoot, Prefix.isDrive, List.drop_succ_cons, List.drop_zero]
    cases hh : s.head? with
    | none => rfl
    | some x => simp [startsSep_head hs x hh]
  | driveRooted d x _ hd hx =>
    obtain ⟨d', hp⟩ := parsePrefix_drive (c := d :: ':' :: x :: s) ⟨d, x :: s, rfl, hd⟩
    refine ⟨_, hp, rfl, rfl, ?_, rfl, .inr (.inl ⟨x, hx, rfl⟩)⟩
    unfold hasRoot hasPhysicalRoot prefixLen
    rw [hp]
    have : isSep x = true := hx
    simp [Prefix.len, this]
  | device a b c name t _ ha hb hc hn ht =>
    have hname : (nextComponent isSep (name ++ t)).1 = name := by
      rcases ht with ⟨rfl, _⟩ | ⟨x, hx, rfl⟩
      · rw [List.append_nil]; exact Path.takeWhile_all _ _ (fun y hy => by simp [noSep_isSep hn y hy])
      · rw [nextComponent_sep (noSep_isSep hn) hx]
    have hp : parsePrefix (a :: b :: '.' :: c :: (name ++ t)) = some (.deviceNs name) := by
      have h1 : strip ['\\', '\\'] (a :: b :: '.' :: c :: (name ++ t)) = some ('.' :: c :: (name ++ t)) :=
        strip_cons.mpr ⟨sep_norm ha, strip_cons.mpr ⟨sep_norm hb, rfl⟩⟩
      have h2 : strip ['?', '\\'] ('.' :: c :: (name ++ t)) = none := rfl
      have h3 : strip ['.', '\\'] ('.' :: c :: (name ++ t)) = some (name ++ t) := strip_cons.mpr ⟨rfl, strip_cons.mpr ⟨sep_norm hc, rfl⟩⟩
      unfold parsePrefix
      rw [h1]
      simp only [h2, h3, ite_self, hname]
    refine ⟨_, hp, by simp [Prefix.len]; omega, rfl, ?_, ?_, ?_⟩
    · unfold hasRoot; rw [hp]; simp [Prefix.hasImplicitRoot, Prefix.isDrive]
    · simp
    · simp only [List.length_cons, List.drop_succ_cons, List.drop_left]
      rcases ht with h | h
      · exact .inr (.inr h)
      · exact .inr (.inl h)
  | share a b c server name t _ ha hb hc hn hm h1 h2 h3 h4 ht =>
    have hname : (nextComponent isSep (name ++ t)).1 = name := by
      rcases ht with ⟨rfl, _⟩ | ⟨x, hx, rfl⟩
      · rw [List.append_nil]; exact Path.takeWhile_all _ _ (fun y hy => by simp [noSep_isSep hm y hy])
      · rw [nextComponent_sep (noSep_isSep hm) hx]
    have hserver := nextComponent_sep (t := name ++ t) (noSep_isSep hn) (show isSep c = true from hc)
    have no : ∀ x, server ≠ [x] → strip [x, '\\'] (server ++ c :: (name ++ t)) = none := by
      intro x hx
      rw [Option.eq_none_iff_forall_ne_some]
      intro r hr
      match server, h1, hx, hn with
      | [], h1, _, _ => exact h1 rfl
      | [y], _, hx, hn =>
        have := (strip_cons.mp hr).1
        unfold norm at this
        split at this
        · rename_i e; subst e; exact absurd hn.1 (by simp)
        · rw [this] at hx; exact hx rfl
      | y :: z :: w, _, _, hn =>
        have := (strip_cons.mp (strip_cons.mp hr).2).1
        unfold norm at this
        split at this
        · rename_i e; subst e; exact absurd hn.1 (by simp)
        · subst this; exact absurd hn.2 (by simp)
    have hp : parsePrefix (a :: b :: (server ++ c :: (name ++ t))) = some (.unc server name) := by
      have e1 : strip ['\\', '\\'] (a :: b :: (server ++ c :: (name ++ t))) = some (server ++ c :: (name ++ t)) :=
        strip_cons.mpr ⟨sep_norm ha, strip_cons.mpr ⟨sep_norm hb, rfl⟩⟩
      unfold parsePrefix
      rw [e1]
      simp only [no _ h3, no _ h4, ite_self, hserver, hname, h1, h2, ne_eq, not_false_eq_true, and_self, if_true]
    refine ⟨_, hp, by simp [Prefix.len, h2]; omega, rfl, ?_, ?_, ?_⟩
    · unfold hasRoot; rw [hp]; simp [Prefix.hasImplicitRoot, Prefix.isDrive]
    · have : a :: b :: (server ++ c :: (name ++ t)) = (a :: b :: (server ++ c :: name)) ++ t := by simp
      rw [this, List.take_left]
    · have : a :: b :: (server ++ c :: (name ++ t)) = (a :: b :: (server ++ c :: name)) ++ t := by simp
      rw [this, List.drop_left]
      rcases ht with h | h
      · exact .inr (.inr h)
      · exact .inr (.inl h)

theorem fold_sep_head (x : Char) (hx : winSep x = true) (s : Str) : (splitOn winSep (x :: s)).foldl pieceStep [] = (splitOn winSep s).foldl pieceStep [] := by
  rw [splitOn, if_pos hx]
  rfl

/-- The names of a path. -/
theorem parts_names {p raw s : Str} {root : Bool} (h : WinParts p raw root s) :
    winResolve (WinPath.components p) = resolveNames winSep s ∧ ∀ c, WinPath.Comp.normal c ∈ WinPath.components p → c ∈ splitOn winSep s := by
  obtain ⟨q, hp, hl, hv, hr, ht, hd⟩ := parts_facts h
  have hpl : prefixLen p = raw.length := by unfold prefixLen; rw [hp]; exact hl
  have hvv : verbatim p = false := by unfold verbatim; rw [hp]; exact hv
  have hsep : sepOf p = winSep := by unfold sepOf; rw [hvv]; rfl
  have hfirst : winResolve (WinPath.components p) = (splitOn winSep (p.drop (lenBeforeBody p))).foldl pieceStep [] := by
    unfold winResolve WinPath.components
    rw [List.foldl_append, hsep, fold_body, List.foldl_append]
    congr 1
    unfold prefixComp start
    split <;> split <;> (try rfl) <;> split <;> split <;> rfl
  have hmem : ∀ c, WinPath.Comp.normal c ∈ WinPath.components p → c ∈ splitOn winSep (p.drop (lenBeforeBody p)) := by
    intro c hc
    unfold WinPath.components at hc
    rw [hsep] at hc
    rcases List.mem_append.mp hc with hc | hc
    · exfalso
      rcases List.mem_append.mp hc with hc | hc
      · unfold prefixComp at hc; split at hc <;> simp at hc
      · unfold start at hc
        split at hc
        · simp at hc
        · split at hc <;> split at hc <;> simp at hc
    · exact normals_pieces _ _ _ hc
  rw [resolveNames_eq, hfirst]
  -- the text after the root
  have hb : p.drop (lenBeforeBody p) = s ∨ (∃ r, s = '.' :: r ∧ p.drop (lenBeforeBody p) = r ∧ (r = [] ∨ ∃ x r', r = x :: r' ∧ winSep x = true)) := by
    unfold lenBeforeBody
    rw [hpl]
    rcases hd with ⟨h1, h2⟩ | ⟨x, hx, h1⟩ | ⟨h1, rfl⟩
    · have hpr : hasPhysicalRoot p = false := by
        unfold hasPhysicalRoot
        rw [hpl, h1]
        cases hh : s.head? with
        | none => rfl
        | some x => simp [startsSep_head h2 x hh]
      rw [hpr]
      cases hi : includeCurDir p with
      | false => left; simpa using h1
      | true =>
        right
        unfold includeCurDir at hi
        rw [hpl, h1, hsep, Bool.and_eq_true] at hi
        have hdrop : ∀ r, s = '.' :: r → p.drop (raw.length + 1) = r := by
          intro r e
          rw [← List.drop_drop, h1, e]
          rfl
        split at hi
        · exact ⟨[], rfl, by simpa using hdrop [] rfl, .inl rfl⟩
        · rename_i c r
          exact ⟨c :: r, rfl, by simpa using hdrop _ rfl, .inr ⟨c, r, rfl, hi.2⟩⟩
        · cases hi.2
    · have hpr : hasPhysicalRoot p = true := by
        unfold hasPhysicalRoot
        rw [hpl, h1]
        exact hx
      have hi : includeCurDir p = false := by unfold includeCurDir hasRoot; rw [hpr]; rfl
      rw [hpr, hi]
      left
      simp only [if_true, Bool.false_eq_true, if_false, Nat.add_zero]
      rw [← List.drop_drop, h1]
      rfl
    · left
      rw [List.drop_eq_nil_iff] at h1 ⊢
      omega
  rcases hb with hb | ⟨r, rfl, hb, hr'⟩
  · rw [hb] at hmem ⊢
    exact ⟨rfl, hmem⟩
  · rw [hb] at hmem ⊢
    have hs : splitOn winSep ('.' :: r) = ['.'] :: (splitOn winSep r).drop 1 ∧ ∃ l, splitOn winSep r = [] :: l := by
      rcases hr' with rfl | ⟨x, r', rfl, hx⟩
      · exact ⟨rfl, [], rfl⟩
      · have : splitOn winSep ('.' :: x :: r') = splitOn winSep ['.'] ++ splitOn winSep r' := splitOn_append_sep winSep ['.'] x r' hx
        have h' : splitOn winSep (x :: r') = [] :: splitOn winSep r' := by rw [splitOn, if_pos hx]
        rw [this, h']
        exact ⟨rfl, _, rfl⟩
    obtain ⟨h1, l, h2⟩ := hs
    rw [h1, h2]
    refine ⟨rfl, fun c hc => ?_⟩
    have := hmem c hc
    rw [h2] at this
    rcases List.mem_cons.mp this with rfl | this
    · exfalso
      unfold WinPath.components at hc
      rcases List.mem_append.mp hc with hc | hc
      · rcases List.mem_append.mp hc with hc | hc
        · unfold prefixComp at hc; split at hc <;> simp at hc
        · unfold start at hc
          split at hc
          · simp at hc
          · split at hc <;> split at hc <;> simp at hc
      · obtain ⟨w, _, hs⟩ := List.mem_filterMap.mp hc
        unfold single at hs
        split at hs
        · split at hs <;> cases hs
        · split at hs
          · cases hs
          · split at hs
            · cases hs
            · rename_i hne; cases hs; exact hne rfl
    · exact List.mem_cons_of_mem _ this

/-- **C105, with the text written out (partial).** A path that is not verbatim and none of whose names starts with a drive is normalized to its prefix
as written, its root as `\\`, and the names left after resolving `.` and `..`, with `\\` between them; both `/` and `\\` separate names. -/
theorem C105_text_partial {p raw s : Str} {root : Bool} (h : WinParts p raw root s) (hd : ∀ c ∈ splitOn winSep s, ¬ DriveLike c) :
    normalizePath p = raw ++ (if root then ['\\'] else []) ++ joinBack (resolveNames winSep s) := by
  obtain ⟨q, hp, hl, hv, hr, ht, _⟩ := parts_facts h
  obtain ⟨hn, hm⟩ := parts_names h
  have hpl : prefixLen p = raw.length := by unfold prefixLen; rw [hp]; exact hl
  have hvv : verbatim p = false := by unfold verbatim; rw [hp]; exact hv
  rw [(C105_normalize_partial p hvv (fun c hc => hd c (hm c hc))).1, hpl, ht, hr, hn]
  rfl

/-- A path whose names contain no `/` is pushed below a verbatim path. -/
theorem vpush {raw : Str} (hr : VerbatimRoot raw) {cs ds : List Str} (h : ∀ c ∈ cs, VerbatimName c) (hne : ds ≠ []) (hd : ∀ c ∈ ds, WinProper c) :
    push (renderWin raw true cs) (joinBack ds) = renderWin raw true (cs ++ ds) := by
  have e : ∀ cs, renderWin raw true cs = raw ++ '\\' :: joinBack cs := fun cs => by simp [renderWin]
  have f := vfacts hr (joinBack cs)
  have hfc := f.components
  rw [vbody_joinBack cs h] at hfc
  have := (push_names (dir := renderWin raw true cs) hne hd).2
  rw [e] at this ⊢
  rw [this f.verbatim, hfc]
  have hl : (WinPath.Comp.pre raw :: WinPath.Comp.rootDir :: cs.map WinPath.Comp.normal) ++ ds.map WinPath.Comp.normal =
      [WinPath.Comp.pre raw, WinPath.Comp.rootDir] ++ (cs ++ ds).map WinPath.Comp.normal := by simp
  rw [hl, verbatimText_normals _ _ (by simp) _ (by simp [hne]), e]
  simp [verbatimText, WinPath.Comp.text]

theorem vpush_bare {raw : Str} (hr : VerbatimRoot raw) {ds : List Str} (hne : ds ≠ []) (hd : ∀ c ∈ ds, WinProper c) :
    push raw (joinBack ds) = renderWin raw true ds := by
  obtain ⟨hv, hc⟩ := vcomponents_bare hr
  rw [(push_names hne hd).2 hv, hc, verbatimText_normals _ _ (by simp) _ hne]
  simp [verbatimText, WinPath.Comp.text, renderWin]

theorem vpush_root {raw : Str} (hr : VerbatimRoot raw) : push raw ['\\'] = raw ++ ['\\'] := by
  obtain ⟨hv, hc⟩ := vcomponents_bare hr
  have h1 : WinPath.isAbs ['\\'] = false := by decide
  have h2 : parsePrefix ['\\'] = none := by decide
  have h3 : WinPath.components ['\\'] = [.rootDir] := by decide
  unfold push
  simp only [h1, h2, hv, hc, h3]
  simp [verbatimStep, verbatimText, WinPath.Comp.text]

/-- **C105, verbatim paths (partial).** In a verbatim path only `\\` separates names.  If none of them contains `/` or starts with a drive, the path is
normalized to its prefix, `\\` and the names left after resolving `.` and `..`; normalizing again changes nothing.  Missing: the other names
(`C105_verbatim_witness`). -/
theorem C105_verbatim_partial {raw : Str} (hr : VerbatimRoot raw) (s : Str) (hd : ∀ c ∈ splitOn verbatimSep s, '/' ∉ c ∧ ¬ DriveLike c) :
    normalizePath (raw ++ '\\' :: s) = raw ++ '\\' :: joinBack (resolveNames verbatimSep s) ∧
    isAbs (normalizePath (raw ++ '\\' :: s)) = true ∧
    normalizePath (normalizePath (raw ++ '\\' :: s)) = normalizePath (raw ++ '\\' :: s) := by
  have e : ∀ cs, raw ++ '\\' :: joinBack cs = renderWin raw true cs := fun cs => by simp [renderWin]
  have main : ∀ s, (∀ c ∈ splitOn verbatimSep s, '/' ∉ c ∧ ¬ DriveLike c) →
      normalizePath (raw ++ '\\' :: s) = raw ++ '\\' :: joinBack (resolveNames verbatimSep s) ∧ ∀ c ∈ resolveNames verbatimSep s, WinProper c := by
    intro s hd
    have f := vfacts hr s
    have hn : ∀ (l : List WinPath.Comp) (st : List Str), (∀ c ∈ l, c = .curDir ∨ c = .parentDir ∨ ∃ x, c = .normal x ∧ WinProper x) →
        (∀ c ∈ st, WinProper c) → l.foldl normalizeStep (renderWin raw true st) = renderWin raw true (l.foldl winResolveStep st) ∧
          ∀ c ∈ l.foldl winResolveStep st, WinProper c := by
      intro l
      induction l with
      | nil => intro st _ h; exact ⟨rfl, h⟩
      | cons c l ih =>
        intro st hl hst
        rw [List.foldl_cons, List.foldl_cons]
        rcases hl c (by simp) with rfl | rfl | ⟨x, rfl, hx⟩
        · exact ih st (fun c hc => hl c (by simp [hc])) hst
        · simp only [normalizeStep, winResolveStep]
          rw [vpop hr (fun c hc => (hst c hc).verbatimName)]
          exact ih _ (fun c hc => hl c (by simp [hc])) (fun c hc => hst c (List.dropLast_subset _ hc))
        · simp only [normalizeStep, winResolveStep]
          have := vpush hr (ds := [x]) (fun c hc => (hst c hc).verbatimName) (by simp) (by simpa using hx)
          rw [show joinBack [x] = x from rfl] at this
          rw [this]
          refine ih _ (fun c hc => hl c (by simp [hc])) (fun c hc => ?_)
          rcases List.mem_append.mp hc with hc | hc
          · exact hst c hc
          · rw [List.mem_singleton] at hc; rw [hc]; exact hx
    obtain ⟨h1, h2⟩ := hn (body isVerbatimSep true s) [] (by
      intro c hc
      obtain ⟨w, hw, hs⟩ := List.mem_filterMap.mp hc
      have hns := splitOn_mem_no_sep _ _ w hw
      unfold single at hs
      split at hs
      · cases hs; exact .inl rfl
      · rename_i n1
        split at hs
        · cases hs; exact .inr (.inl rfl)
        · rename_i n2
          split at hs
          · cases hs
          · rename_i n3
            cases hs
            obtain ⟨d1, d2⟩ := hd w hw
            exact .inr (.inr ⟨w, rfl, n3, ⟨d1, fun h => absurd (hns _ h) (by decide)⟩, n1, n2, d2⟩)) (by simp)
    rw [fold_body] at h1 h2
    refine ⟨?_, h2⟩
    unfold normalizePath
    rw [f.components]
    simp only [List.foldl_cons, normalizeStep]
    rw [vpush_root hr]
    have : raw ++ ['\\'] = renderWin raw true [] := by simp [renderWin, joinBack]
    rw [this, h1, ← e]
    rfl
  obtain ⟨h1, h2⟩ := main s hd
  refine ⟨h1, ?_, ?_⟩
  · rw [h1]
    obtain ⟨q, hv, hl, hp⟩ := parse_verbatim hr
    have hp := hp _ (.inr ⟨joinBack (resolveNames verbatimSep s), rfl⟩)
    unfold isAbs hasRoot
    rw [hp]
    cases q with
    | verbatim n => simp [Prefix.hasImplicitRoot, Prefix.isDrive]
    | verbatimUnc a b => simp [Prefix.hasImplicitRoot, Prefix.isDrive]
    | verbatimDisk d => simp [Prefix.hasImplicitRoot, Prefix.isDrive]
    | _ => cases hv
  · rw [h1]
    generalize resolveNames verbatimSep s = names at h2
    have hs : splitOn verbatimSep (joinBack names) = if names = [] then [[]] else names := by
      by_cases hne : names = []
      · subst hne; rfl
      · rw [if_neg hne]; exact splitOnV_joinBack names hne (fun c hc => (h2 c hc).2.1.2)
    have hres : resolveNames verbatimSep (joinBack names) = names := by
      rw [resolveNames_eq, ← fold_body verbatimSep true, verbatimSep_eq, vbody_joinBack names (fun c hc => (h2 c hc).verbatimName)]
      have : ∀ (l st : List Str), (l.map WinPath.Comp.normal).foldl winResolveStep st = st ++ l := by
        intro l
        induction l with
        | nil => simp
        | cons x l ih => intro st; rw [List.map_cons, List.foldl_cons, ih]; simp [winResolveStep]
      rw [this, List.nil_append]
    rw [(main (joinBack names) (by
      rw [hs]
      split
      · intro c hc; rw [List.mem_singleton] at hc; subst hc; exact ⟨by simp, by rintro ⟨_, _, h, _⟩; cases h⟩
      · intro c hc; exact ⟨(h2 c hc).2.1.1, (h2 c hc).2.2.2.2⟩)).1, hres]

/-- A bare verbatim prefix stays as it is. -/
theorem C105_verbatim_bare {raw : Str} (hr : VerbatimRoot raw) : normalizePath raw = raw := by
  unfold normalizePath
  rw [(vcomponents_bare hr).2]
  rfl

/-- **C105 is false for verbatim paths too**: a name with `/`, which is one name there, becomes two. -/
theorem C105_verbatim_witness : normalizePath (str% "\\\\?\\C:\\a/b") = str% "\\\\?\\C:\\a\\b" ∧
    normalizePath (str% "\\\\?\\C:\\x\\../y") = str% "\\\\?\\C:\\y" := by decide +kernel

/-- **C104, verbatim store directories.** In a store whose directory is verbatim (`\\\\?\\C:\\store` and the like, whose names may contain `/`) the file
is below it. -/
theorem C104_verbatim {raw : Str} (hr : VerbatimRoot raw) {cs : List Str} (hc : ∀ c ∈ cs, VerbatimName c) {name id : Str}
    (hn : WinProper name) (hid : WinProper id) :
    ∃ d f, StoreDirName name d ∧ StoreFileName name f ∧
      push (raw ++ '\\' :: joinBack cs) (getPathForSym name id) = raw ++ '\\' :: joinBack (cs ++ [d, id, f]) ∧
      push raw (getPathForSym name id) = raw ++ '\\' :: joinBack [d, id, f] := by
  obtain ⟨d, f, h1, h2, h3, h4, e⟩ := getPathForSym_win hn hid
  have hd : ∀ c ∈ [d, id, f], WinProper c := by simp [h3, h4, hid]
  have r : ∀ cs, raw ++ '\\' :: joinBack cs = renderWin raw true cs := fun cs => by simp [renderWin]
  refine ⟨d, f, h1, h2, ?_, ?_⟩
  · rw [e, r, r, vpush hr hc (by simp) hd]
  · rw [e, r, vpush_bare hr (by simp) hd]

/-- The recorded path of a source file that is not on the Windows machine it was compiled on (see C72), with the text written out. -/
theorem C105_recorded_text_partial {path raw s : Str} {root : Bool} (h : WinParts path raw root s) (hd : ∀ c ∈ splitOn winSep s, ¬ DriveLike c) (p : Str) :
    Resolved .win path p ↔ p = raw ++ (if root then ['\\'] else []) ++ joinBack (resolveNames winSep s) := by
  unfold Resolved
  rw [C105_text_partial h hd]

/-- The same for a verbatim path. -/
theorem C105_recorded_verbatim_partial {raw : Str} (hr : VerbatimRoot raw) (s : Str) (hd : ∀ c ∈ splitOn verbatimSep s, '/' ∉ c ∧ ¬ DriveLike c) (p : Str) :
    Resolved .win (raw ++ '\\' :: s) p ↔ p = raw ++ '\\' :: joinBack (resolveNames verbatimSep s) := by
  unfold Resolved
  rw [(C105_verbatim_partial hr s hd).1]

/-! Concrete paths. -/

example : WinParts (str% "c:/a/./b") (str% "c:") true (str% "a/./b") := .driveRooted 'c' '/' _ rfl rfl
example : WinParts (str% "\\\\srv/data\\x\\..\\y") (str% "\\\\srv/data") true (str% "x\\..\\y") :=
  .share '\\' '\\' '/' (str% "srv") (str% "data") (str% "\\x\\..\\y") _ rfl rfl rfl ⟨by decide, by decide⟩ ⟨by decide, by decide⟩ (by decide) (by decide)
    (by decide) (by decide) (.inr ⟨'\\', rfl, rfl⟩)
example : resolveNames winSep (str% "a/./b\\..\\..\\..\\c//d/") = [['c'], ['d']] := by decide
example : resolveNames verbatimSep (str% "a/./b\\..\\c") = [['c']] := by decide
example : VerbatimRoot (str% "\\\\?\\C:") := .disk 'C' rfl
example : VerbatimRoot (str% "\\\\?\\UNC\\srv\\data") := .unc (str% "srv") (str% "data") (by decide) (by decide) (by decide)
example : VerbatimRoot (str% "\\\\?\\Volume{1}") :=
  .name (str% "Volume{1}") (by decide) ⟨by decide, by rintro ⟨r, h⟩; simp at h⟩ (by rintro ⟨d, r, h, _⟩; simp at h)
example : push (str% "\\\\?\\C:\\a/b\\st") (getPathForSym (str% "xul.pdb") (str% "1")) = str% "\\\\?\\C:\\a/b\\st\\xul.pdb\\1\\xul.sym" := by decide +kernel
example : normalizePath (str% "\\\\?\\UNC\\srv\\data\\x\\.\\..\\y") = str% "\\\\?\\UNC\\srv\\data\\y" := by decide +kernel

end WinHost
end DumpSyms
