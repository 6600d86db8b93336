import Verif.Proof.WinPath
/-!
# Verbatim Windows paths in canonical form
-/
namespace DumpSyms
namespace WinPath

theorem vsep_of {c : Str} (h : '\\' ∉ c) : ∀ x ∈ c, isVerbatimSep x = false := by
  intro x hx
  unfold isVerbatimSep
  rw [beq_eq_false_iff_ne]
  rintro rfl
  exact h hx

theorem nextV_end {s t : Str} (h : '\\' ∉ s) (ht : t = [] ∨ ∃ r, t = '\\' :: r) :
    (nextComponent isVerbatimSep (s ++ t)).1 = s ∧ (nextComponent isVerbatimSep (s ++ t)).2 = t.drop 1 := by
  have h1 : s.takeWhile (fun y => !isVerbatimSep y) = s := Path.takeWhile_all _ _ (fun y hy => by simp [vsep_of h y hy])
  have h2 : s.dropWhile (fun y => !isVerbatimSep y) = [] := Path.dropWhile_all _ _ (fun y hy => by simp [vsep_of h y hy])
  unfold nextComponent
  rw [List.takeWhile_append, List.dropWhile_append, h1, h2]
  rcases ht with rfl | ⟨r, rfl⟩
  · simp
  · simp [isVerbatimSep]

theorem strip_cons {x a : Char} {xs p r : Str} : strip (x :: xs) (a :: p) = some r ↔ norm a = x ∧ strip xs p = some r := by
  rw [strip]
  unfold norm
  by_cases h : (if a = '/' then '\\' else a) = x
  · rw [if_pos h]; simp [h]
  · rw [if_neg h]; simp [h]

theorem norm_eq {x y : Char} (hy : y ≠ '\\') (h : norm x = y) : x = y := by
  unfold norm at h
  split at h
  · exact absurd h.symm hy
  · exact h

/-- A verbatim prefix is found whatever follows after a separator. -/
theorem parse_verbatim {raw : Str} (h : VerbatimRoot raw) : ∃ q : Prefix, q.isVerbatim = true ∧ q.len = raw.length ∧
    ∀ t, (t = [] ∨ ∃ r, t = '\\' :: r) → parsePrefix (raw ++ t) = some q := by
  cases h with
  | disk d hd =>
    refine ⟨.verbatimDisk d.toUpper, rfl, rfl, fun t ht => ?_⟩
    have hU : strip ['U', 'N', 'C', '\\'] (d :: ':' :: t) = none := by
      rw [Option.eq_none_iff_forall_ne_some]
      intro r hr
      have := (strip_cons.mp (strip_cons.mp hr).2).1
      exact absurd this (by decide)
    have hm : ('/' ∈ ('\\' :: '\\' :: '?' :: '\\' :: d :: ':' :: t).take 4) = False := by simp
    have h2 : parseDriveExact (d :: ':' :: t) = some d.toUpper := by
      unfold parseDriveExact
      rcases ht with rfl | ⟨r, rfl⟩ <;> simp [parseDrive, hd, isSep]
    have h1 : strip ['\\', '\\'] ('\\' :: '\\' :: '?' :: '\\' :: d :: ':' :: t) = some ('?' :: '\\' :: d :: ':' :: t) := rfl
    have h3 : strip ['?', '\\'] ('?' :: '\\' :: d :: ':' :: t) = some (d :: ':' :: t) := rfl
    show parsePrefix ('\\' :: '\\' :: '?' :: '\\' :: d :: ':' :: t) = _
    unfold parsePrefix
    rw [h1]
    simp only [hm, if_false, h3, hU, h2]
  | unc server share s1 s2 s3 =>
    refine ⟨.verbatimUnc server share, rfl, ?_, fun t ht => ?_⟩
    · simp only [Prefix.len, if_neg s3, List.length_cons, List.length_append]; omega
    have h1 : strip ['\\', '\\'] ('\\' :: '\\' :: '?' :: '\\' :: 'U' :: 'N' :: 'C' :: '\\' :: (server ++ '\\' :: (share ++ t))) =
        some ('?' :: '\\' :: 'U' :: 'N' :: 'C' :: '\\' :: (server ++ '\\' :: (share ++ t))) := rfl
    have h3 : strip ['?', '\\'] ('?' :: '\\' :: 'U' :: 'N' :: 'C' :: '\\' :: (server ++ '\\' :: (share ++ t))) =
        some ('U' :: 'N' :: 'C' :: '\\' :: (server ++ '\\' :: (share ++ t))) := rfl
    have hU : strip ['U', 'N', 'C', '\\'] ('U' :: 'N' :: 'C' :: '\\' :: (server ++ '\\' :: (share ++ t))) = some (server ++ '\\' :: (share ++ t)) := rfl
    have hm : ('/' ∈ ('\\' :: '\\' :: '?' :: '\\' :: 'U' :: 'N' :: 'C' :: '\\' :: (server ++ '\\' :: (share ++ t))).take 4) = False := by simp
    have e : ('\\' :: '\\' :: '?' :: '\\' :: 'U' :: 'N' :: 'C' :: '\\' :: (server ++ '\\' :: share)) ++ t =
        '\\' :: '\\' :: '?' :: '\\' :: 'U' :: 'N' :: 'C' :: '\\' :: (server ++ '\\' :: (share ++ t)) := by simp
    obtain ⟨n1, n2⟩ := nextV_end (t := '\\' :: (share ++ t)) s1 (.inr ⟨_, rfl⟩)
    obtain ⟨n3, _⟩ := nextV_end (t := t) s2 ht
    rw [e]
    unfold parsePrefix
    rw [h1]
    simp only [hm, if_false, h3, hU, n1, n2, List.drop_succ_cons, List.drop_zero, n3]
  | name n hn hu hd =>
    refine ⟨.verbatim n, rfl, by simp [Prefix.len]; omega, fun t ht => ?_⟩
    have h1 : strip ['\\', '\\'] ('\\' :: '\\' :: '?' :: '\\' :: (n ++ t)) = some ('?' :: '\\' :: (n ++ t)) := rfl
    have h3 : strip ['?', '\\'] ('?' :: '\\' :: (n ++ t)) = some (n ++ t) := rfl
    have hm : ('/' ∈ ('\\' :: '\\' :: '?' :: '\\' :: (n ++ t)).take 4) = False := by simp
    have hU : strip ['U', 'N', 'C', '\\'] (n ++ t) = none := by
      rw [Option.eq_none_iff_forall_ne_some]
      intro r hr
      match n, hn, hu with
      | [], _, _ =>
        rcases ht with rfl | ⟨r, rfl⟩
        · cases hr
        · exact absurd (strip_cons.mp hr).1 (by decide)
      | [a], _, _ =>
        have hr := (strip_cons.mp hr).2
        rcases ht with rfl | ⟨r, rfl⟩
        · cases hr
        · exact absurd (strip_cons.mp hr).1 (by decide)
      | [a, b], _, _ =>
        have hr := (strip_cons.mp (strip_cons.mp hr).2).2
        rcases ht with rfl | ⟨r, rfl⟩
        · cases hr
        · exact absurd (strip_cons.mp hr).1 (by decide)
      | [a, b, c], _, hu =>
        obtain ⟨e1, hr⟩ := strip_cons.mp hr
        obtain ⟨e2, hr⟩ := strip_cons.mp hr
        obtain ⟨e3, hr⟩ := strip_cons.mp hr
        rw [norm_eq (by decide) e1, norm_eq (by decide) e2, norm_eq (by decide) e3] at hu
        exact hu.1 rfl
      | a :: b :: c :: d :: n, hn, hu =>
        obtain ⟨e1, hr⟩ := strip_cons.mp hr
        obtain ⟨e2, hr⟩ := strip_cons.mp hr
        obtain ⟨e3, hr⟩ := strip_cons.mp hr
        obtain ⟨e4, hr⟩ := strip_cons.mp hr
        have : d = '/' := by
          unfold norm at e4
          split at e4
          · assumption
          · subst e4; simp at hn
        rw [norm_eq (by decide) e1, norm_eq (by decide) e2, norm_eq (by decide) e3, this] at hu
        exact hu.2 ⟨n, rfl⟩
    have hD : parseDriveExact (n ++ t) = none := by
      rw [Option.eq_none_iff_forall_ne_some]
      intro d hr
      have key : ∃ x r, n ++ t = x :: ':' :: r ∧ x.isAlpha = true ∧ (r = [] ∨ ∃ y r', r = y :: r' ∧ isSep y = true) := by
        unfold parseDriveExact at hr
        split at hr
        · rename_i e
          unfold parseDrive at hr
          split at hr
          · rename_i x r e'
            rw [e'] at e
            split at hr
            · rename_i hx; exact ⟨x, r, e', hx, .inl (by simpa using e)⟩
            · cases hr
          · cases hr
        · rename_i y r' e
          split at hr
          · rename_i hy
            unfold parseDrive at hr
            split at hr
            · rename_i x r e'
              rw [e'] at e
              split at hr
              · rename_i hx; exact ⟨x, r, e', hx, .inr ⟨y, r', by simpa using e, hy⟩⟩
              · cases hr
            · cases hr
          · cases hr
      obtain ⟨x, r, e, hx, hr'⟩ := key
      match n, hn, hd with
      | [], _, _ =>
        rcases ht with rfl | ⟨r, rfl⟩
        · cases e
        · cases e; exact absurd hx (by decide)
      | [a], _, _ =>
        rcases ht with rfl | ⟨r, rfl⟩
        · cases e
        · simp at e
      | a :: b :: n, hn, hd =>
        simp only [List.cons_append, List.cons.injEq] at e
        obtain ⟨rfl, rfl, e⟩ := e
        refine hd ⟨a, n, rfl, hx, ?_⟩
        cases n with
        | nil => exact .inl rfl
        | cons y n =>
          right
          rcases hr' with rfl | ⟨z, r', rfl, hz⟩
          · cases e
          · simp only [List.cons_append, List.cons.injEq] at e
            obtain ⟨rfl, rfl⟩ := e
            simp only [isSep, Bool.or_eq_true, beq_iff_eq] at hz
            rcases hz with rfl | rfl
            · exact ⟨n, rfl⟩
            · simp at hn
    obtain ⟨n1, _⟩ := nextV_end (t := t) hn ht
    show parsePrefix ('\\' :: '\\' :: '?' :: '\\' :: (n ++ t)) = _
    unfold parsePrefix
    rw [h1]
    simp only [hm, if_false, h3, hU, hD, n1]

/-- A verbatim path: the prefix, the root and anything. -/
structure VFacts (raw s : Str) (p : Str) : Prop where
  verbatim : verbatim p = true
  sep : sepOf p = isVerbatimSep
  head : p.take (lenBeforeBody p) = raw ++ ['\\']
  body : p.drop (lenBeforeBody p) = s
  start : start p = [.rootDir]
  components : components p = .pre raw :: .rootDir :: WinPath.body isVerbatimSep true s

theorem vfacts {raw : Str} (h : VerbatimRoot raw) (s : Str) : VFacts raw s (raw ++ '\\' :: s) := by
  obtain ⟨q, hv, hl, hp⟩ := parse_verbatim h
  have hp := hp ('\\' :: s) (.inr ⟨s, rfl⟩)
  have h1 : WinPath.verbatim (raw ++ '\\' :: s) = true := by unfold WinPath.verbatim; rw [hp]; exact hv
  have h2 : sepOf (raw ++ '\\' :: s) = isVerbatimSep := by unfold sepOf; rw [h1]; rfl
  have h3 : prefixLen (raw ++ '\\' :: s) = raw.length := by unfold prefixLen; rw [hp]; exact hl
  have h4 : hasPhysicalRoot (raw ++ '\\' :: s) = true := by unfold hasPhysicalRoot; rw [h3, List.drop_left]; rfl
  have h5 : includeCurDir (raw ++ '\\' :: s) = false := by unfold includeCurDir hasRoot; rw [h4]; rfl
  have h6 : lenBeforeBody (raw ++ '\\' :: s) = (raw ++ ['\\']).length := by unfold lenBeforeBody; rw [h3, h4, h5]; simp
  have e : raw ++ '\\' :: s = (raw ++ ['\\']) ++ s := by simp
  have h7 : WinPath.start (raw ++ '\\' :: s) = [.rootDir] := by unfold WinPath.start; rw [h4]; rfl
  have h8 : (raw ++ '\\' :: s).drop (lenBeforeBody (raw ++ '\\' :: s)) = s := by rw [h6, e, List.drop_left]
  refine ⟨h1, h2, by rw [h6, e, List.take_left], h8, h7, ?_⟩
  unfold WinPath.components prefixComp
  rw [h7, h8, h1, h2, hp, h3, List.take_left]
  rfl

/-- The prefix alone. -/
theorem vcomponents_bare {raw : Str} (h : VerbatimRoot raw) : WinPath.verbatim raw = true ∧ components raw = [.pre raw] := by
  obtain ⟨q, hv, hl, hp⟩ := parse_verbatim h
  have hp := hp [] (.inl rfl)
  rw [List.append_nil] at hp
  have h1 : WinPath.verbatim raw = true := by unfold WinPath.verbatim; rw [hp]; exact hv
  have h3 : prefixLen raw = raw.length := by unfold prefixLen; rw [hp]; exact hl
  have h4 : hasPhysicalRoot raw = false := by unfold hasPhysicalRoot; rw [h3, List.drop_length]; rfl
  have h5 : includeCurDir raw = false := by unfold includeCurDir; rw [h3, List.drop_length]; simp
  have h6 : lenBeforeBody raw = raw.length := by unfold lenBeforeBody; rw [h3, h4, h5]; simp
  have h7 : WinPath.start raw = [] := by
    unfold WinPath.start
    rw [h4, hp]
    simp [hv]
  refine ⟨h1, ?_⟩
  unfold WinPath.components prefixComp
  rw [h7, hp, h3, h6, List.take_length, List.drop_length]
  cases WinPath.verbatim raw <;> rfl

theorem vname_single {c : Str} (h : VerbatimName c) (v : Bool) : single v c = some (.normal c) := by
  unfold single
  rw [if_neg h.2.2.1, if_neg h.2.2.2, if_neg h.1]

theorem splitOnV_joinBack (cs : List Str) (hne : cs ≠ []) (h : ∀ c ∈ cs, '\\' ∉ c) : splitOn isVerbatimSep (joinBack cs) = cs := by
  induction cs with
  | nil => exact absurd rfl hne
  | cons c cs ih =>
    by_cases hc : cs = []
    · subst hc
      exact splitOn_no_sep _ _ (vsep_of (h c (by simp)))
    · rw [joinBack_cons _ _ hc, splitOn_append_sep _ _ _ _ rfl, splitOn_no_sep _ _ (vsep_of (h c (by simp))),
        ih hc (fun c hc => h c (by simp [hc]))]
      rfl

theorem vbody_joinBack (cs : List Str) (h : ∀ c ∈ cs, VerbatimName c) : body isVerbatimSep true (joinBack cs) = cs.map .normal := by
  unfold body
  by_cases hne : cs = []
  · subst hne; rfl
  · rw [splitOnV_joinBack cs hne (fun c hc => (h c hc).2.1)]
    clear hne
    induction cs with
    | nil => rfl
    | cons c cs ih =>
      rw [List.filterMap_cons_some (vname_single (h c (by simp)) true), ih (fun c hc => h c (by simp [hc]))]
      rfl

theorem lastPieceV {s c : Str} (hc : '\\' ∉ c) : lastPiece isVerbatimSep (s ++ '\\' :: c) = c ∧ cutLast isVerbatimSep (s ++ '\\' :: c) = s := by
  have h1 : c.reverse.takeWhile (fun x => !isVerbatimSep x) = c.reverse :=
    Path.takeWhile_all _ _ (fun x hx => by simp [vsep_of hc x (List.mem_reverse.mp hx)])
  have h2 : c.reverse.dropWhile (fun x => !isVerbatimSep x) = [] :=
    Path.dropWhile_all _ _ (fun x hx => by simp [vsep_of hc x (List.mem_reverse.mp hx)])
  unfold lastPiece cutLast
  rw [List.reverse_append, List.reverse_cons, List.append_assoc, List.takeWhile_append, List.dropWhile_append, h1, h2]
  simp [isVerbatimSep]

theorem lastPieceV_joinBack {cs : List Str} {c : Str} (hc : '\\' ∉ c) :
    lastPiece isVerbatimSep (joinBack (cs ++ [c])) = c ∧ cutLast isVerbatimSep (joinBack (cs ++ [c])) = joinBack cs := by
  by_cases h : cs = []
  · subst h
    have h1 : c.reverse.takeWhile (fun x => !isVerbatimSep x) = c.reverse :=
      Path.takeWhile_all _ _ (fun x hx => by simp [vsep_of hc x (List.mem_reverse.mp hx)])
    have h2 : c.reverse.dropWhile (fun x => !isVerbatimSep x) = [] :=
      Path.dropWhile_all _ _ (fun x hx => by simp [vsep_of hc x (List.mem_reverse.mp hx)])
    unfold lastPiece cutLast
    simp only [List.nil_append, joinBack, h1, h2, List.reverse_reverse]
    exact ⟨trivial, rfl⟩
  · rw [joinBack_snoc _ _ h]
    exact lastPieceV hc

theorem trimRightV_joinBack {cs : List Str} (h : ∀ c ∈ cs, VerbatimName c) (n : Nat) : trimRight isVerbatimSep true n (joinBack cs) = joinBack cs := by
  cases n with
  | zero => rfl
  | succ n =>
    rw [trimRight, if_neg]
    rintro ⟨h1, h2⟩
    have hne : cs ≠ [] := by rintro rfl; exact h1 rfl
    obtain ⟨t, x, rfl⟩ := eq_snoc hne
    have hx := h x (by simp)
    rw [(lastPieceV_joinBack hx.2.1).1, vname_single hx] at h2
    cases h2

theorem joinBack_ne {cs : List Str} (hne : cs ≠ []) (h : ∀ c ∈ cs, c ≠ []) : joinBack cs ≠ [] := by
  cases cs with
  | nil => exact absurd rfl hne
  | cons c cs =>
    have := h c (by simp)
    cases c with
    | nil => exact absurd rfl this
    | cons x c => cases cs <;> simp [joinBack]

/-- Leaving the last name of a verbatim path. -/
theorem vpop {raw : Str} (hr : VerbatimRoot raw) {cs : List Str} (h : ∀ c ∈ cs, VerbatimName c) :
    pop (renderWin raw true cs) = renderWin raw true cs.dropLast := by
  have e : ∀ cs, renderWin raw true cs = raw ++ '\\' :: joinBack cs := fun cs => by simp [renderWin]
  have f := vfacts hr (joinBack cs)
  rw [e, e]
  unfold WinPath.pop parent trimmedBody
  rw [f.body, f.sep, f.verbatim, f.head, f.start]
  simp only [trimRightV_joinBack h]
  by_cases hne : cs = []
  · subst hne; simp [joinBack]
  · obtain ⟨t, x, rfl⟩ := eq_snoc hne
    have hx := h x (by simp)
    rw [if_pos (joinBack_ne hne (fun c hc => (h c hc).1)), (lastPieceV_joinBack hx.2.1).2,
      trimRightV_joinBack (fun c hc => h c (by simp [hc])), List.dropLast_concat]
    simp

theorem _root_.DumpSyms.WinProper.verbatimName {c : Str} (h : WinProper c) : VerbatimName c := ⟨h.1, h.2.1.2, h.2.2.1, h.2.2.2.1⟩

end WinPath
end DumpSyms
