import Verif.Spec.WinHost
import Verif.Model.WinHost
import Verif.Proof.Path
/-!
# Windows paths in canonical form
-/
namespace DumpSyms
namespace WinPath

theorem noSep_isSep {c : Str} (h : NoSep c) : ∀ x ∈ c, isSep x = false := by
  intro x hx
  unfold isSep
  rw [Bool.or_eq_false_iff]
  constructor
  · rw [beq_eq_false_iff_ne]; rintro rfl; exact h.1 hx
  · rw [beq_eq_false_iff_ne]; rintro rfl; exact h.2 hx

theorem joinBack_cons (c : Str) (cs : List Str) (h : cs ≠ []) : joinBack (c :: cs) = c ++ '\\' :: joinBack cs := by
  cases cs with
  | nil => exact absurd rfl h
  | cons => rfl

theorem joinBack_snoc (cs : List Str) (c : Str) (h : cs ≠ []) : joinBack (cs ++ [c]) = joinBack cs ++ '\\' :: c := by
  induction cs with
  | nil => exact absurd rfl h
  | cons d cs ih =>
    by_cases hc : cs = []
    · subst hc; rfl
    · rw [List.cons_append, joinBack_cons _ _ (by simp), joinBack_cons _ _ hc, ih hc]
      simp

theorem splitOn_joinBack (cs : List Str) (hne : cs ≠ []) (h : ∀ c ∈ cs, NoSep c) : splitOn isSep (joinBack cs) = cs := by
  induction cs with
  | nil => exact absurd rfl hne
  | cons c cs ih =>
    by_cases hc : cs = []
    · subst hc
      exact splitOn_no_sep _ _ (noSep_isSep (h c (by simp)))
    · rw [joinBack_cons _ _ hc, splitOn_append_sep _ _ _ _ rfl, splitOn_no_sep _ _ (noSep_isSep (h c (by simp))),
        ih hc (fun c hc => h c (by simp [hc]))]
      rfl

theorem single_proper {c : Str} (h : WinProper c) (v : Bool) : single v c = some (.normal c) := by
  unfold single
  rw [if_neg h.2.2.1, if_neg h.2.2.2.1, if_neg h.1]

theorem body_joinBack (cs : List Str) (h : ∀ c ∈ cs, WinProper c) (v : Bool) : body isSep v (joinBack cs) = cs.map .normal := by
  unfold body
  by_cases hne : cs = []
  · subst hne; cases v <;> rfl
  · rw [splitOn_joinBack cs hne (fun c hc => (h c hc).2.1)]
    clear hne
    induction cs with
    | nil => rfl
    | cons c cs ih =>
      rw [List.filterMap_cons_some (single_proper (h c (by simp)) v), ih (fun c hc => h c (by simp [hc]))]
      rfl

theorem strip_noSep {c : Str} {pat : Str} (h : ∀ x, c.head? = some x → isSep x = false) : strip ('\\' :: pat) c = none := by
  cases c with
  | nil => rfl
  | cons d c =>
    have := h d rfl
    simp only [isSep, Bool.or_eq_false_iff, beq_eq_false_iff_ne] at this
    simp [strip, this.1, this.2]

theorem parseDrive_none {c : Str} (h : ¬ DriveLike c) : parseDrive c = none := by
  unfold parseDrive
  split
  · rename_i d r
    split
    · rename_i hd
      exact absurd ⟨d, r, rfl, hd⟩ h
    · rfl
  · rfl

/-- A text that starts neither with a separator nor with a drive has no prefix. -/
theorem parsePrefix_none {c : Str} (h : ∀ x, c.head? = some x → isSep x = false) (hd : ¬ DriveLike c) : parsePrefix c = none := by
  unfold parsePrefix
  rw [strip_noSep h, parseDrive_none hd]
  rfl

theorem head_noSep {c : Str} (h : NoSep c) : ∀ x, c.head? = some x → isSep x = false := by
  intro x hx
  exact noSep_isSep h x (List.mem_of_mem_head? hx)

theorem parsePrefix_proper {c : Str} (h : NoSep c) (hd : ¬ DriveLike c) : parsePrefix c = none := parsePrefix_none (head_noSep h) hd

theorem parsePrefix_drive {c : Str} (hd : DriveLike c) : ∃ d, parsePrefix c = some (.disk d) := by
  obtain ⟨d, r, rfl, h⟩ := hd
  refine ⟨d.toUpper, ?_⟩
  have h1 : isSep d = false := by
    unfold isSep
    rw [Bool.or_eq_false_iff, beq_eq_false_iff_ne, beq_eq_false_iff_ne]
    constructor
    · rintro rfl; exact absurd h (by decide)
    · rintro rfl; exact absurd h (by decide)
  unfold parsePrefix
  rw [strip_noSep (by intro x hx; cases hx; exact h1)]
  simp [parseDrive, h]

theorem joinBack_head {cs : List Str} (h : ∀ c ∈ cs, WinProper c) : ∀ x, (joinBack cs).head? = some x → isSep x = false := by
  intro x hx
  cases cs with
  | nil => cases hx
  | cons c cs =>
    have hc := h c (by simp)
    have : (joinBack (c :: cs)).head? = c.head? := by
      cases c with
      | nil => exact absurd rfl hc.1
      | cons d c => cases cs <;> rfl
    rw [this] at hx
    exact head_noSep hc.2.1 x hx

theorem joinBack_not_drive {cs : List Str} (h : ∀ c ∈ cs, WinProper c) : ¬ DriveLike (joinBack cs) := by
  rintro ⟨d, r, e, hd⟩
  cases cs with
  | nil => cases e
  | cons c cs =>
    have hc := h c (by simp)
    match c, hc with
    | [], hc => exact hc.1 rfl
    | [x], hc =>
      cases cs with
      | nil => cases e
      | cons c' cs => rw [joinBack_cons _ _ (by simp)] at e; simp at e
    | x :: y :: z, hc =>
      refine hc.2.2.2.2 ⟨x, z, ?_, ?_⟩
      · cases cs with
        | nil => injection e with e1 e2; injection e2 with e2 e3; rw [e2]
        | cons c' cs =>
          rw [joinBack_cons _ _ (by simp)] at e
          simp only [List.cons_append, List.cons.injEq] at e
          rw [e.2.1]
      · cases cs with
        | nil => injection e with e1 e2; rw [e1]; exact hd
        | cons c' cs =>
          rw [joinBack_cons _ _ (by simp)] at e
          simp only [List.cons_append, List.cons.injEq] at e
          rw [e.1]; exact hd

/-- What is before the names in a canonical path: the text of the prefix is found again whatever follows, and where the prefix has an implicit
root there is one. -/
structure Anchor (raw : Str) (pre : Option Prefix) (root : Bool) : Prop where
  parse : ∀ cs, (∀ c ∈ cs, WinProper c) → parsePrefix (renderWin raw root cs) = pre
  len : (pre.map Prefix.len).getD 0 = raw.length
  plain : (pre.map Prefix.isVerbatim).getD false = false
  implicit : (pre.map Prefix.hasImplicitRoot).getD false = true → root = true
  empty : pre = none → raw = []
  drive : pre ≠ none → root = false → ∃ d, pre = some (.disk d)

variable {raw : Str} {pre : Option Prefix} {root : Bool} {cs : List Str}

theorem Anchor.prefixLen (a : Anchor raw pre root) (h : ∀ c ∈ cs, WinProper c) : prefixLen (renderWin raw root cs) = raw.length := by
  unfold WinPath.prefixLen
  rw [a.parse cs h, a.len]

theorem Anchor.verbatim (a : Anchor raw pre root) (h : ∀ c ∈ cs, WinProper c) : verbatim (renderWin raw root cs) = false := by
  unfold WinPath.verbatim
  rw [a.parse cs h, a.plain]

theorem Anchor.sepOf (a : Anchor raw pre root) (h : ∀ c ∈ cs, WinProper c) : sepOf (renderWin raw root cs) = isSep := by
  unfold WinPath.sepOf
  rw [a.verbatim h]
  rfl

theorem Anchor.drop (a : Anchor raw pre root) (h : ∀ c ∈ cs, WinProper c) :
    (renderWin raw root cs).drop (WinPath.prefixLen (renderWin raw root cs)) = (if root then ['\\'] else []) ++ joinBack cs := by
  rw [a.prefixLen h, renderWin, List.append_assoc, List.drop_left]

theorem Anchor.hasPhysicalRoot (a : Anchor raw pre root) (h : ∀ c ∈ cs, WinProper c) : hasPhysicalRoot (renderWin raw root cs) = root := by
  unfold WinPath.hasPhysicalRoot
  rw [a.drop h]
  cases root with
  | true => rfl
  | false =>
    simp only [Bool.false_eq_true, if_false, List.nil_append]
    cases hh : (joinBack cs).head? with
    | none => rfl
    | some x => simp [joinBack_head h x hh]

theorem Anchor.hasRoot (a : Anchor raw pre root) (h : ∀ c ∈ cs, WinProper c) : hasRoot (renderWin raw root cs) = root := by
  unfold WinPath.hasRoot
  rw [a.hasPhysicalRoot h, a.parse cs h]
  have := a.implicit
  cases root with
  | true => rfl
  | false =>
    rw [Bool.false_or, ← Bool.not_eq_true]
    intro h'
    exact absurd (this h') (by simp)

theorem joinBack_not_dot {cs : List Str} (h : ∀ c ∈ cs, WinProper c) :
    (match joinBack cs with | ['.'] => true | '.' :: c :: _ => isSep c | _ => false) = false := by
  split
  · rename_i e
    cases cs with
    | nil => cases e
    | cons c cs =>
      cases cs with
      | nil => exact absurd e (h c (by simp)).2.2.1
      | cons c' cs =>
        rw [joinBack_cons _ _ (by simp)] at e
        have := congrArg List.length e
        have hc := (h c (by simp)).1
        cases c with
        | nil => exact absurd rfl hc
        | cons => simp at this
  · rename_i x r e
    cases cs with
    | nil => cases e
    | cons c cs =>
      have hc := h c (by simp)
      match c, hc with
      | [], hc => exact absurd rfl hc.1
      | [y], hc =>
        have : y = '.' := by
          cases cs with
          | nil => cases e
          | cons c' cs => rw [joinBack_cons _ _ (by simp)] at e; injection e with e1 e2
        subst this
        exact absurd rfl hc.2.2.1
      | y :: z :: w, hc =>
        have : z = x := by
          cases cs with
          | nil => injection e with e1 e2; injection e2 with e2 e3
          | cons c' cs =>
            rw [joinBack_cons _ _ (by simp)] at e
            simp only [List.cons_append, List.cons.injEq] at e
            exact e.2.1
        subst this
        exact noSep_isSep hc.2.1 z (by simp)
  · rfl

theorem Anchor.includeCurDir (a : Anchor raw pre root) (h : ∀ c ∈ cs, WinProper c) : includeCurDir (renderWin raw root cs) = false := by
  unfold WinPath.includeCurDir
  rw [a.hasRoot h, a.drop h, a.sepOf h]
  cases root with
  | true => rfl
  | false =>
    simp only [Bool.not_false, Bool.true_and, Bool.false_eq_true, if_false, List.nil_append]
    exact joinBack_not_dot h

theorem Anchor.lenBeforeBody (a : Anchor raw pre root) (h : ∀ c ∈ cs, WinProper c) :
    lenBeforeBody (renderWin raw root cs) = (raw ++ (if root then ['\\'] else [])).length := by
  unfold WinPath.lenBeforeBody
  rw [a.prefixLen h, a.hasPhysicalRoot h, a.includeCurDir h]
  cases root <;> simp

theorem Anchor.start (a : Anchor raw pre root) (h : ∀ c ∈ cs, WinProper c) :
    start (renderWin raw root cs) = if root then [.rootDir] else [] := by
  unfold WinPath.start
  rw [a.hasPhysicalRoot h, a.parse cs h, a.includeCurDir h]
  cases root with
  | true => rfl
  | false =>
    have := a.implicit
    simp only [Bool.false_eq_true, if_false]
    split
    · rename_i q
      simp only [Option.map_some, Option.getD_some] at this
      rw [if_neg]
      intro hq
      rw [Bool.and_eq_true] at hq
      exact absurd (this hq.1) (by simp)
    · rfl

theorem Anchor.body (a : Anchor raw pre root) (h : ∀ c ∈ cs, WinProper c) :
    (renderWin raw root cs).drop (WinPath.lenBeforeBody (renderWin raw root cs)) = joinBack cs := by
  rw [a.lenBeforeBody h, renderWin, List.drop_left]

theorem Anchor.head (a : Anchor raw pre root) (h : ∀ c ∈ cs, WinProper c) :
    (renderWin raw root cs).take (WinPath.lenBeforeBody (renderWin raw root cs)) = raw ++ (if root then ['\\'] else []) := by
  rw [a.lenBeforeBody h, renderWin, List.take_left]

/-- The components of a canonical path. -/
theorem Anchor.components (a : Anchor raw pre root) (h : ∀ c ∈ cs, WinProper c) :
    components (renderWin raw root cs) = (if pre.isSome then [.pre raw] else []) ++ (if root then [.rootDir] else []) ++ cs.map .normal := by
  unfold WinPath.components prefixComp
  rw [a.start h, a.body h, a.sepOf h, a.parse cs h, a.prefixLen h, body_joinBack cs h]
  have : (renderWin raw root cs).take raw.length = raw := by rw [renderWin, List.append_assoc, List.take_left]
  rw [this]

theorem renderWin_snoc (raw : Str) (root : Bool) (cs : List Str) (c : Str) :
    renderWin raw root (cs ++ [c]) = if cs = [] then renderWin raw root [] ++ c else renderWin raw root cs ++ '\\' :: c := by
  unfold renderWin
  by_cases h : cs = []
  · subst h; simp [joinBack]
  · rw [if_neg h, joinBack_snoc _ _ h]; simp

theorem joinBack_getLast {cs : List Str} (hne : cs ≠ []) (h : ∀ c ∈ cs, WinProper c) : ∃ x, (joinBack cs).getLast? = some x ∧ isSep x = false := by
  induction cs with
  | nil => exact absurd rfl hne
  | cons c cs ih =>
    by_cases hc : cs = []
    · subst hc
      have hp := h c (by simp)
      cases hl : c.getLast? with
      | none => exact absurd (List.getLast?_eq_none_iff.mp hl) hp.1
      | some x => exact ⟨x, hl, noSep_isSep hp.2.1 x (List.mem_of_getLast? hl)⟩
    · obtain ⟨x, h1, h2⟩ := ih hc (fun c hc => h c (by simp [hc]))
      refine ⟨x, ?_, h2⟩
      rw [joinBack_cons _ _ hc, List.getLast?_append, List.getLast?_cons, h1]
      rfl

/-- Pushing a name. -/
theorem Anchor.push (a : Anchor raw pre root) (h : ∀ c ∈ cs, WinProper c) {c : Str} (hc : WinProper c) :
    push (renderWin raw root cs) c = renderWin raw root (cs ++ [c]) := by
  have hpc : parsePrefix c = none := parsePrefix_proper hc.2.1 hc.2.2.2.2
  have hrc : WinPath.hasRoot c = false := by
    unfold WinPath.hasRoot WinPath.hasPhysicalRoot WinPath.prefixLen
    rw [hpc]
    simp only [Option.map_none, Option.getD_none, List.drop_zero, Bool.or_false]
    cases hh : c.head? with
    | none => rfl
    | some x => simp [head_noSep hc.2.1 x hh]
  have hac : WinPath.isAbs c = false := by unfold WinPath.isAbs; rw [hpc]; simp
  unfold WinPath.push
  rw [hac, hpc, a.verbatim h, hrc, a.prefixLen h, a.parse cs h, renderWin_snoc]
  simp only [Option.isSome_none, Bool.or_false, Bool.false_eq_true, if_false, Bool.false_and]
  by_cases hcs : cs = []
  · subst hcs
    rw [if_pos rfl, if_neg]
    cases root with
    | true =>
      have : (renderWin raw true []).getLast? = some '\\' := by simp [renderWin, joinBack]
      rw [this]
      simp [isSep]
    | false =>
      cases pre with
      | none => rw [a.empty rfl]; simp [renderWin, joinBack]
      | some q =>
        obtain ⟨d, hd⟩ := a.drive (by simp) rfl
        have hl := a.len
        rw [hd] at hl ⊢
        simp [Prefix.len] at hl
        simp [renderWin, joinBack, Prefix.isDrive, ← hl]
  · rw [if_neg hcs, if_pos]
    obtain ⟨x, hx, hs⟩ := joinBack_getLast hcs h
    have : (renderWin raw root cs).getLast? = some x := by
      rw [renderWin, List.getLast?_append, hx]; rfl
    rw [this]
    have hlen : raw.length < (renderWin raw root cs).length := by
      have : joinBack cs ≠ [] := by intro e; rw [e] at hx; cases hx
      have := List.length_pos_iff.mpr this
      simp only [renderWin, List.length_append]
      omega
    have : (raw.length == (renderWin raw root cs).length) = false := by
      rw [beq_eq_false_iff_ne]; omega
    simp [hs, this]

theorem lastPiece_append {s c : Str} (hc : NoSep c) : lastPiece isSep (s ++ '\\' :: c) = c := by
  unfold lastPiece
  rw [List.reverse_append, List.reverse_cons, List.append_assoc, List.takeWhile_append]
  have : c.reverse.takeWhile (fun x => !isSep x) = c.reverse :=
    Path.takeWhile_all _ _ (fun x hx => by simp [noSep_isSep hc x (List.mem_reverse.mp hx)])
  rw [this]
  simp [isSep]

theorem lastPiece_all {c : Str} (hc : NoSep c) : lastPiece isSep c = c := by
  unfold lastPiece
  rw [Path.takeWhile_all _ _ (fun x hx => by simp [noSep_isSep hc x (List.mem_reverse.mp hx)]), List.reverse_reverse]

theorem cutLast_append {s c : Str} (hc : NoSep c) : cutLast isSep (s ++ '\\' :: c) = s := by
  unfold cutLast
  rw [List.reverse_append, List.reverse_cons, List.append_assoc, List.dropWhile_append]
  have : c.reverse.dropWhile (fun x => !isSep x) = [] :=
    Path.dropWhile_all _ _ (fun x hx => by simp [noSep_isSep hc x (List.mem_reverse.mp hx)])
  rw [this]
  simp [isSep]

theorem cutLast_all {c : Str} (hc : NoSep c) : cutLast isSep c = [] := by
  unfold cutLast
  rw [Path.dropWhile_all _ _ (fun x hx => by simp [noSep_isSep hc x (List.mem_reverse.mp hx)])]
  rfl

theorem cutLast_joinBack {cs : List Str} {c : Str} (hc : NoSep c) : cutLast isSep (joinBack (cs ++ [c])) = joinBack cs := by
  by_cases h : cs = []
  · subst h; exact cutLast_all hc
  · rw [joinBack_snoc _ _ h, cutLast_append hc]

theorem lastPiece_joinBack {cs : List Str} {c : Str} (hc : NoSep c) : lastPiece isSep (joinBack (cs ++ [c])) = c := by
  by_cases h : cs = []
  · subst h; exact lastPiece_all hc
  · rw [joinBack_snoc _ _ h, lastPiece_append hc]

theorem eq_snoc {α : Type} {l : List α} (h : l ≠ []) : ∃ t x, l = t ++ [x] :=
  ⟨l.dropLast, l.getLast h, (List.dropLast_concat_getLast h).symm⟩

theorem trimRight_joinBack {cs : List Str} (h : ∀ c ∈ cs, WinProper c) (v : Bool) (n : Nat) : trimRight isSep v n (joinBack cs) = joinBack cs := by
  cases n with
  | zero => rfl
  | succ n =>
    rw [trimRight, if_neg]
    rintro ⟨h1, h2⟩
    have hne : cs ≠ [] := by rintro rfl; exact h1 rfl
    obtain ⟨t, x, rfl⟩ := eq_snoc hne
    have hx := h x (by simp)
    rw [lastPiece_joinBack hx.2.1, single_proper hx] at h2
    cases h2

/-- Leaving the last name. -/
theorem Anchor.pop (a : Anchor raw pre root) (h : ∀ c ∈ cs, WinProper c) : pop (renderWin raw root cs) = renderWin raw root cs.dropLast := by
  unfold WinPath.pop parent trimmedBody
  rw [a.body h, a.sepOf h, a.head h, a.start h]
  simp only [trimRight_joinBack h]
  by_cases hne : cs = []
  · subst hne
    cases root <;> simp [joinBack]
  · obtain ⟨t, x, rfl⟩ := eq_snoc hne
    have hx := h x (by simp)
    have hj : joinBack (t ++ [x]) ≠ [] := by
      intro e
      obtain ⟨y, hy, _⟩ := joinBack_getLast hne h
      rw [e] at hy
      cases hy
    rw [if_pos hj, cutLast_joinBack hx.2.1, trimRight_joinBack (fun c hc => h c (by simp [hc])), List.dropLast_concat]
    rfl

theorem anchor_none (root : Bool) : Anchor [] none root where
  parse := by
    intro cs h
    cases root with
    | false =>
      have : renderWin [] false cs = joinBack cs := rfl
      rw [this]
      exact parsePrefix_none (joinBack_head h) (joinBack_not_drive h)
    | true =>
      have e : renderWin [] true cs = '\\' :: joinBack cs := rfl
      rw [e]
      have h1 : strip ['\\', '\\'] ('\\' :: joinBack cs) = none := by
        rw [strip, if_pos (by decide)]
        exact strip_noSep (joinBack_head h)
      have h2 : parseDrive ('\\' :: joinBack cs) = none := by
        refine parseDrive_none ?_
        rintro ⟨d, r, e, hd⟩
        injection e with e1
        rw [← e1] at hd
        exact absurd hd (by decide)
      unfold parsePrefix
      rw [h1, h2]
      rfl
  len := rfl
  plain := rfl
  implicit := by intro h; cases h
  empty := fun _ => rfl
  drive := fun h => absurd rfl h

theorem anchor_drive (d : Char) (hd : d.isAlpha = true) (root : Bool) : Anchor [d, ':'] (some (.disk d.toUpper)) root where
  parse := by
    intro cs _
    have h1 : isSep d = false := by
      unfold isSep
      rw [Bool.or_eq_false_iff, beq_eq_false_iff_ne, beq_eq_false_iff_ne]
      constructor
      · rintro rfl; exact absurd hd (by decide)
      · rintro rfl; exact absurd hd (by decide)
    have e : renderWin [d, ':'] root cs = d :: ':' :: ((if root then ['\\'] else []) ++ joinBack cs) := by simp [renderWin]
    rw [e]
    unfold parsePrefix
    rw [strip_noSep (by intro x hx; cases hx; exact h1)]
    simp [parseDrive, hd]
  len := rfl
  plain := rfl
  implicit := by intro h; cases h
  empty := by intro h; cases h
  drive := fun _ _ => ⟨_, rfl⟩

/-- One character as the parser of prefixes sees it. -/
def norm (c : Char) : Char := if c = '/' then '\\' else c

theorem strip_two {x y : Char} {p r : Str} : strip [x, y] p = some r ↔ ∃ a b, p = a :: b :: r ∧ norm a = x ∧ norm b = y := by
  match p with
  | [] => simp [strip]
  | [a] =>
    simp only [strip]
    split <;> simp
  | a :: b :: p =>
    simp only [strip, norm]
    by_cases ha : (if a = '/' then '\\' else a) = x
    · rw [if_pos ha]
      by_cases hb : (if b = '/' then '\\' else b) = y
      · rw [if_pos hb]
        constructor
        · intro h; cases h; exact ⟨a, b, rfl, ha, hb⟩
        · rintro ⟨_, _, e, _, _⟩; cases e; rfl
      · rw [if_neg hb]
        simp only [reduceCtorEq, false_iff]
        rintro ⟨_, _, e, _, h⟩; cases e; exact hb h
    · rw [if_neg ha]
      simp only [reduceCtorEq, false_iff]
      rintro ⟨_, _, e, h, _⟩; cases e; exact ha h

theorem nextComponent_fst (s : Str) : ∀ x ∈ (nextComponent isSep s).1, isSep x = false := by
  intro x hx
  have : ∀ l : Str, x ∈ l.takeWhile (fun c => !isSep c) → isSep x = false := by
    intro l
    induction l with
    | nil => intro h; cases h
    | cons y l ih =>
      rw [List.takeWhile_cons]
      split
      · rename_i hy
        intro h
        rcases List.mem_cons.mp h with rfl | h
        · simpa using hy
        · exact ih h
      · intro h; cases h
  exact this s hx

theorem nextComponent_sep {s t : Str} {x : Char} (h : ∀ y ∈ s, isSep y = false) (hx : isSep x = true) : nextComponent isSep (s ++ x :: t) = (s, t) := by
  unfold nextComponent
  have h1 : s.takeWhile (fun y => !isSep y) = s := Path.takeWhile_all _ _ (fun y hy => by simp [h y hy])
  have h2 : s.dropWhile (fun y => !isSep y) = [] := Path.dropWhile_all _ _ (fun y hy => by simp [h y hy])
  rw [List.takeWhile_append, List.dropWhile_append, h1, h2]
  simp [hx]

/-- A text is its next component, alone or with a separator and the rest. -/
theorem nextComponent_split (s : Str) :
    (s = (nextComponent isSep s).1 ∧ (nextComponent isSep s).2 = []) ∨
    ∃ x, isSep x = true ∧ s = (nextComponent isSep s).1 ++ x :: (nextComponent isSep s).2 := by
  unfold nextComponent
  cases h : s.dropWhile (fun c => !isSep c) with
  | nil =>
    left
    have := List.takeWhile_append_dropWhile (p := fun c => !isSep c) (l := s)
    rw [h, List.append_nil] at this
    exact ⟨this.symm, by simp⟩
  | cons x t =>
    right
    refine ⟨x, ?_, ?_⟩
    · have := List.head?_dropWhile_not (fun c => !isSep c) s
      rw [h] at this
      simpa using this
    · have := List.takeWhile_append_dropWhile (p := fun c => !isSep c) (l := s)
      rw [h] at this
      simpa using this.symm

theorem nextComponent_end {s t : Str} (h : ∀ y ∈ s, isSep y = false) (ht : t = [] ∨ ∃ r, t = '\\' :: r) : (nextComponent isSep (s ++ t)).1 = s := by
  rcases ht with rfl | ⟨r, rfl⟩
  · rw [List.append_nil]
    exact Path.takeWhile_all _ _ (fun y hy => by simp [h y hy])
  · rw [nextComponent_sep h rfl]

/-- The prefixes of devices and shares are found again when nothing, or a separator and anything follows. -/
theorem parsePrefix_again {p : Str} {q : Prefix} (h : parsePrefix p = some q) (hv : q.isVerbatim = false) (hd : q.isDrive = false) {t : Str}
    (ht : t = [] ∨ ∃ r, t = '\\' :: r) :
    parsePrefix (p.take q.len ++ t) = some q ∧ (p.take q.len).length = q.len := by
  unfold parsePrefix at h
  split at h
  · rename_i p1 h1
    obtain ⟨a, b, rfl, ha, hb⟩ := strip_two.mp h1
    split at h
    · -- verbatim
      exfalso
      split at h
      · cases h; cases hv
      · split at h <;> (cases h; cases hv)
    · rename_i hq
      split at h
      · rename_i p2 h2
        obtain ⟨c, d, rfl, hc, hd'⟩ := strip_two.mp h2
        cases h
        have hc' : c = '.' := by
          unfold norm at hc
          split at hc
          · exact absurd hc (by decide)
          · exact hc
        subst hc'
        obtain ⟨n, r, hn⟩ : ∃ n r, nextComponent isSep p2 = (n, r) := ⟨_, _, rfl⟩
        have hns : ∀ x ∈ n, isSep x = false := by have := nextComponent_fst p2; rw [hn] at this; exact this
        have htake : (a :: b :: '.' :: d :: p2).take (Prefix.deviceNs (nextComponent isSep p2).1).len = a :: b :: '.' :: d :: n := by
          rw [hn]
          have : p2.take n.length = n := by
            rcases nextComponent_split p2 with ⟨e, _⟩ | ⟨x, _, e⟩
            · rw [hn] at e; simp only at e; rw [e, List.take_length]
            · rw [hn] at e; rw [e]; exact List.take_left
          simp [Prefix.len, Nat.add_comm 4, this]
        rw [htake, hn]
        refine ⟨?_, by simp [Prefix.len]; omega⟩
        unfold parsePrefix
        have e1 : strip ['\\', '\\'] (a :: b :: '.' :: d :: n ++ t) = some ('.' :: d :: n ++ t) := strip_two.mpr ⟨a, b, rfl, ha, hb⟩
        have e2 : strip ['?', '\\'] ('.' :: d :: n ++ t) = none := by
          cases h' : strip ['?', '\\'] ('.' :: d :: n ++ t) with
          | none => rfl
          | some r => obtain ⟨x, y, e, hx, _⟩ := strip_two.mp h'; cases e; exact absurd hx (by decide)
        have e3 : strip ['.', '\\'] ('.' :: d :: n ++ t) = some (n ++ t) := strip_two.mpr ⟨'.', d, rfl, by decide, hd'⟩
        rw [e1]
        simp only [e2, ite_self, e3, nextComponent_end hns ht]
      · rename_i h2
        simp only at h
        split at h
        · rename_i hne
          cases h
          obtain ⟨server, r, hs⟩ : ∃ n r, nextComponent isSep p1 = (n, r) := ⟨_, _, rfl⟩
          obtain ⟨share, r', hs'⟩ : ∃ n r', nextComponent isSep r = (n, r') := ⟨_, _, rfl⟩
          have n1 : ∀ x ∈ server, isSep x = false := by have := nextComponent_fst p1; rw [hs] at this; exact this
          have n2 : ∀ x ∈ share, isSep x = false := by have := nextComponent_fst r; rw [hs'] at this; exact this
          rw [hs] at hne ⊢
          simp only [hs'] at hne ⊢
          rcases nextComponent_split p1 with ⟨_, e⟩ | ⟨x, hx, e⟩
          · rw [hs] at e
            simp only at e
            rw [e] at hs'
            cases hs'
            exact absurd rfl hne.2
          · rw [hs] at e
            simp only at e
            have e' : ∃ z, r = share ++ z := by
              rcases nextComponent_split r with ⟨e, _⟩ | ⟨x, _, e⟩
              · rw [hs'] at e; exact ⟨[], by simpa using e⟩
              · rw [hs'] at e; exact ⟨_, e⟩
            obtain ⟨z, rfl⟩ := e'
            subst e
            have htake : (a :: b :: (server ++ x :: (share ++ z))).take (Prefix.unc server share).len = a :: b :: (server ++ x :: share) := by
              have : (a :: b :: (server ++ x :: (share ++ z))) = (a :: b :: (server ++ x :: share)) ++ z := by simp
              rw [this]
              have hl : (Prefix.unc server share).len = (a :: b :: (server ++ x :: share)).length := by
                simp only [Prefix.len, if_neg hne.2, List.length_cons, List.length_append]; omega
              rw [hl]
              exact List.take_left
            rw [htake]
            refine ⟨?_, by simp only [Prefix.len, if_neg hne.2, List.length_cons, List.length_append]; omega⟩
            -- the first two characters of the server and what follows decide about the other kinds
            have hfirst : ∀ w : Str, ∃ c d w', server ++ x :: (share ++ w) = c :: d :: (w' ++ w) ∧ ∀ v, server ++ x :: (share ++ v) = c :: d :: (w' ++ v) := by
              intro w
              match server, hne.1 with
              | [c], _ => exact ⟨c, x, share, rfl, fun v => rfl⟩
              | c :: d :: s, _ => exact ⟨c, d, s ++ x :: share, by simp, fun v => by simp⟩
            obtain ⟨c, d, w', e0, eall⟩ := hfirst z
            rw [eall] at hq h2
            have etext : a :: b :: (server ++ x :: share) ++ t = a :: b :: c :: d :: (w' ++ t) := by
              have := eall (t)
              rw [← this]
              simp
            have e1 : strip ['\\', '\\'] (a :: b :: c :: d :: (w' ++ t)) = some (c :: d :: (w' ++ t)) := strip_two.mpr ⟨a, b, rfl, ha, hb⟩
            have htwo : ∀ y, strip [y, '\\'] (c :: d :: (w' ++ z)) = none → strip [y, '\\'] (c :: d :: (w' ++ t)) = none := by
              intro y hy
              cases h' : strip [y, '\\'] (c :: d :: (w' ++ t)) with
              | none => rfl
              | some r =>
                obtain ⟨_, _, e, h3, h4⟩ := strip_two.mp h'
                cases e
                rw [strip_two.mpr ⟨c, d, rfl, h3, h4⟩] at hy
                cases hy
            have e2 : (if '/' ∈ (a :: b :: c :: d :: (w' ++ t)).take 4 then none else strip ['?', '\\'] (c :: d :: (w' ++ t))) = none := by
              rw [eall] at h1
              by_cases hslash : '/' ∈ (a :: b :: c :: d :: (w' ++ z)).take 4
              · rw [if_pos (by simpa using hslash)]
              · have : '/' ∉ (a :: b :: c :: d :: (w' ++ t)).take 4 := by simpa using hslash
                rw [if_neg this]
                refine htwo '?' ?_
                rw [if_neg hslash] at hq
                exact hq
            have e3 := htwo '.' h2
            rw [etext]
            unfold parsePrefix
            rw [e1]
            simp only [e2, e3]
            have e4 : c :: d :: (w' ++ t) = server ++ x :: (share ++ t) := (eall _).symm
            rw [e4, nextComponent_sep n1 hx]
            simp only [nextComponent_end n2 ht]
            rw [if_pos hne]
        · cases h
  · exfalso
    cases hp : parseDrive p with
    | none => rw [hp] at h; cases h
    | some d => rw [hp] at h; cases h; cases hd

theorem anchor_other {p : Str} {q : Prefix} (h : parsePrefix p = some q) (hv : q.isVerbatim = false) (hd : q.isDrive = false) :
    Anchor (p.take q.len) (some q) true where
  parse := by
    intro cs _
    have : renderWin (p.take q.len) true cs = p.take q.len ++ '\\' :: joinBack cs := by simp [renderWin]
    rw [this]
    exact (parsePrefix_again h hv hd (.inr ⟨_, rfl⟩)).1
  len := (parsePrefix_again h hv hd (.inl rfl)).2.symm
  plain := hv
  implicit := fun _ => rfl
  empty := by intro h; cases h
  drive := by intro _ h; cases h

end WinPath
end DumpSyms
