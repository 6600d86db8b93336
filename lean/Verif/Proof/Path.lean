import Verif.Spec.Paths
import Verif.Model.Utils
import Verif.Base.Lst
/-! Helper lemmas about paths. -/
namespace DumpSyms

theorem splitOn_ne_nil (p : Char → Bool) (s : Str) : splitOn p s ≠ [] := by
  induction s with
  | nil => simp [splitOn]
  | cons c s ih =>
    unfold splitOn
    split
    · simp
    · split <;> simp

theorem splitOn_no_sep (p : Char → Bool) (s : Str) (h : ∀ c ∈ s, p c = false) : splitOn p s = [s] := by
  induction s with
  | nil => rfl
  | cons c s ih =>
    unfold splitOn
    rw [if_neg (by simp [h c (by simp)]), ih (fun x hx => h x (by simp [hx]))]

theorem splitOn_append_sep (p : Char → Bool) (a : Str) (c : Char) (r : Str) (hc : p c = true) :
    splitOn p (a ++ c :: r) = splitOn p a ++ splitOn p r := by
  induction a with
  | nil => simp [splitOn, hc]
  | cons x a ih =>
    simp only [List.cons_append]
    rw [splitOn, splitOn]
    split
    · rw [ih]; rfl
    · rw [ih]
      have := splitOn_ne_nil p a
      cases h : splitOn p a with
      | nil => exact absurd h this
      | cons w ws => rfl

theorem splitOn_mem_no_sep (p : Char → Bool) (s : Str) : ∀ w ∈ splitOn p s, ∀ c ∈ w, p c = false := by
  induction s with
  | nil => simp [splitOn]
  | cons c s ih =>
    unfold splitOn
    split
    · intro w hw
      rcases List.mem_cons.mp hw with rfl | hw
      · simp
      · exact ih w hw
    · rename_i hc
      cases h : splitOn p s with
      | nil => simp only; intro w hw; simp at hw; subst hw; simpa using hc
      | cons w0 ws =>
        simp only
        rw [h] at ih
        intro w hw
        rcases List.mem_cons.mp hw with rfl | hw
        · intro x hx
          rcases List.mem_cons.mp hx with rfl | hx
          · simpa using hc
          · exact ih w0 (by simp) x hx
        · exact ih w (by simp [hw])

namespace Path

theorem bodyComp_proper {c : Str} (h : ProperComp c) : bodyComp c = some (.normal c) := by
  unfold bodyComp
  rw [if_neg h.1, if_neg h.2.2.1, if_neg h.2.2.2]

theorem no_slash_isSlash {c : Str} (h : '/' ∉ c) : ∀ x ∈ c, isSlash x = false := by
  intro x hx
  unfold isSlash
  simp only [beq_eq_false_iff_ne, ne_eq]
  intro he; subst he; exact h hx

theorem joinSlash_cons (c : Str) (cs : List Str) (h : cs ≠ []) :
    joinSlash (c :: cs) = c ++ '/' :: joinSlash cs := by
  cases cs with
  | nil => exact absurd rfl h
  | cons d ds => rfl

theorem splitOn_joinSlash (cs : List Str) (hne : cs ≠ []) (h : ∀ c ∈ cs, '/' ∉ c) :
    splitOn isSlash (joinSlash cs) = cs := by
  induction cs with
  | nil => exact absurd rfl hne
  | cons c cs ih =>
    cases cs with
    | nil => exact splitOn_no_sep _ _ (no_slash_isSlash (h c (by simp)))
    | cons d ds =>
      rw [joinSlash_cons _ _ (by simp), splitOn_append_sep _ _ _ _ (by rfl),
        splitOn_no_sep _ _ (no_slash_isSlash (h c (by simp))), ih (by simp) (fun c hc => h c (by simp [hc]))]
      rfl

theorem filterMap_bodyComp (cs : List Str) (h : ∀ c ∈ cs, ProperComp c) :
    cs.filterMap bodyComp = cs.map Comp.normal := by
  induction cs with
  | nil => rfl
  | cons c cs ih =>
    rw [List.filterMap_cons, bodyComp_proper (h c (by simp)), ih (fun c hc => h c (by simp [hc]))]
    rfl

theorem isAbs_cons (c : Char) (s : Str) : isAbs (c :: s) = (c == '/') := by
  unfold isAbs; simp [List.head?_cons]

theorem proper_head {c : Str} (h : ProperComp c) : isAbs c = false := by
  cases c with
  | nil => rfl
  | cons x c =>
    rw [isAbs_cons]
    simp only [beq_eq_false_iff_ne, ne_eq]
    intro he; exact h.2.1 (by simp [he])

theorem joinSlash_isAbs (cs : List Str) (h : ∀ c ∈ cs, ProperComp c) : isAbs (joinSlash cs) = false := by
  cases cs with
  | nil => rfl
  | cons c cs =>
    have hc := h c (by simp)
    cases cs with
    | nil => exact proper_head hc
    | cons d ds =>
      rw [joinSlash_cons _ _ (by simp)]
      cases c with
      | nil => exact absurd rfl hc.1
      | cons x c => rw [List.cons_append, isAbs_cons]; have := proper_head hc; rwa [isAbs_cons] at this

theorem renderPath_isAbs (abs : Bool) (cs : List Str) (h : ∀ c ∈ cs, ProperComp c) :
    isAbs (renderPath abs cs) = abs := by
  cases abs with
  | false => simpa [renderPath] using joinSlash_isAbs cs h
  | true => simp [renderPath, isAbs_cons]

theorem components_render (abs : Bool) (cs : List Str) (h : ∀ c ∈ cs, ProperComp c) :
    components (renderPath abs cs) = (if abs then [Comp.rootDir] else []) ++ cs.map Comp.normal := by
  cases abs with
  | false =>
    unfold components
    rw [renderPath_isAbs _ _ h]
    simp only [renderPath, Bool.false_eq_true, if_false]
    cases cs with
    | nil => rfl
    | cons c cs =>
      have hc := h c (by simp)
      rw [splitOn_joinSlash _ (by simp) (fun c hc => (h c hc).2.1)]
      simp only
      rw [if_neg hc.2.2.1, bodyComp_proper hc, filterMap_bodyComp _ (fun c hc => h c (by simp [hc]))]
      rfl
  | true =>
    unfold components
    rw [renderPath_isAbs _ _ h]
    simp only [renderPath, if_true]
    have : splitOn isSlash ('/' :: joinSlash cs) = [] :: splitOn isSlash (joinSlash cs) := by
      rw [splitOn]; rfl
    rw [this]
    simp only
    cases cs with
    | nil => rfl
    | cons c cs =>
      rw [splitOn_joinSlash _ (by simp) (fun c hc => (h c hc).2.1), filterMap_bodyComp _ h]

/-- Components of a path extended with more pieces. -/
theorem components_append (d r : Str) (hd : d ≠ []) :
    components (d ++ '/' :: r) = components d ++ (splitOn isSlash r).filterMap bodyComp := by
  unfold components
  rw [splitOn_append_sep _ _ _ _ (by rfl)]
  have hab : isAbs (d ++ '/' :: r) = isAbs d := by
    cases d with
    | nil => exact absurd rfl hd
    | cons x d => rw [List.cons_append, isAbs_cons, isAbs_cons]
  cases h : splitOn isSlash d with
  | nil => exact absurd h (splitOn_ne_nil _ _)
  | cons w ws =>
    simp only [List.cons_append, hab, List.filterMap_append, List.append_assoc]

theorem joinSlash_snoc (cs : List Str) (c : Str) (h : cs ≠ []) :
    joinSlash (cs ++ [c]) = joinSlash cs ++ '/' :: c := by
  induction cs with
  | nil => exact absurd rfl h
  | cons d cs ih =>
    cases cs with
    | nil => rfl
    | cons e es =>
      rw [List.cons_append, joinSlash_cons d (e :: es ++ [c]) (by simp), ih (by simp),
        joinSlash_cons d (e :: es) (by simp)]
      simp

theorem joinSlash_ne_nil (cs : List Str) (hne : cs ≠ []) (h : ∀ c ∈ cs, c ≠ []) : joinSlash cs ≠ [] := by
  cases cs with
  | nil => exact absurd rfl hne
  | cons c cs =>
    have := h c (by simp)
    cases cs with
    | nil => exact this
    | cons d ds => rw [joinSlash_cons _ _ (by simp)]; simp

theorem joinSlash_getLast (cs : List Str) (hne : cs ≠ []) (h : ∀ c ∈ cs, ProperComp c) :
    ∃ x, (joinSlash cs).getLast? = some x ∧ x ≠ '/' := by
  induction cs using list_snoc_induction with
  | h0 => exact absurd rfl hne
  | h1 cs c ih =>
    have hc := h c (by simp)
    have hl : ∃ x, c.getLast? = some x ∧ x ≠ '/' := by
      cases hcl : c.getLast? with
      | none => rw [List.getLast?_eq_none_iff] at hcl; exact absurd hcl hc.1
      | some x =>
        refine ⟨x, rfl, ?_⟩
        intro he; subst he
        exact hc.2.1 (List.mem_of_getLast? hcl)
    obtain ⟨x, hx, hx2⟩ := hl
    by_cases h0 : cs = []
    · subst h0; exact ⟨x, hx, hx2⟩
    · rw [joinSlash_snoc _ _ h0]
      refine ⟨x, ?_, hx2⟩
      rw [List.getLast?_append, List.getLast?_cons, hx]
      simp

theorem push_render (abs : Bool) (cs : List Str) (c : Str) (h : ∀ c ∈ cs, ProperComp c) (hc : ProperComp c) :
    push (renderPath abs cs) c = renderPath abs (cs ++ [c]) := by
  unfold push
  rw [proper_head hc]
  simp only [Bool.false_eq_true, if_false]
  by_cases h0 : cs = []
  · subst h0
    cases abs <;> simp [renderPath, joinSlash]
  · obtain ⟨x, hx, hx2⟩ := joinSlash_getLast cs h0 h
    have hr : (renderPath abs cs).getLast? = some x := by
      cases abs
      · simpa [renderPath] using hx
      · simp only [renderPath, if_true, List.getLast?_cons, hx]; rfl
    rw [if_neg (by rw [hr]; simp [hx2])]
    cases abs <;> simp [renderPath, joinSlash_snoc _ _ h0]

theorem trimTrailRev_ne_slash {x : Char} {r : Str} (h : x ≠ '/') (h2 : x ≠ '.' ∨ r.head? ≠ some '/') :
    trimTrailRev (x :: r) = x :: r := by
  unfold trimTrailRev
  split
  · rename_i heq; simp at heq; exact absurd heq.1 h
  · rename_i heq
    simp at heq
    rcases h2 with h2 | h2
    · exact absurd heq.1 h2
    · rw [heq.2] at h2; simp at h2
  · rfl

/-- A path ending with a proper component has nothing to trim. -/
theorem trimTrail_proper (pre c : Str) (hc : ProperComp c) : trimTrail (pre ++ c) = pre ++ c := by
  unfold trimTrail
  rw [List.reverse_append]
  cases hr : c.reverse with
  | nil => exact absurd (by simpa using hr) hc.1
  | cons x r =>
    have hcr : c = r.reverse ++ [x] := by
      have := congrArg List.reverse hr; simpa using this
    have hx : x ≠ '/' := by intro he; apply hc.2.1; rw [hcr]; simp [he]
    have h2 : x ≠ '.' ∨ (r ++ pre.reverse).head? ≠ some '/' := by
      by_cases hd : x = '.'
      · right
        cases r with
        | nil => exact absurd (by rw [hcr, hd]; rfl) hc.2.2.1
        | cons y r =>
          simp only [List.cons_append, List.head?_cons, ne_eq, Option.some.injEq]
          intro he; apply hc.2.1; rw [hcr]; simp [he]
      · exact .inl hd
    rw [List.cons_append, trimTrailRev_ne_slash hx h2]
    rw [← List.cons_append, ← hr, List.reverse_append, List.reverse_reverse, List.reverse_reverse]

theorem dropWhile_all {α : Type} (p : α → Bool) (l : List α) (h : ∀ x ∈ l, p x = true) : l.dropWhile p = [] := by
  induction l with
  | nil => rfl
  | cons a l ih =>
    rw [List.dropWhile_cons, if_pos (h a (by simp))]
    exact ih (fun x hx => h x (by simp [hx]))

theorem takeWhile_all {α : Type} (p : α → Bool) (l : List α) (h : ∀ x ∈ l, p x = true) : l.takeWhile p = l := by
  induction l with
  | nil => rfl
  | cons a l ih =>
    rw [List.takeWhile_cons, if_pos (h a (by simp)), ih (fun x hx => h x (by simp [hx]))]

theorem renderPath_snoc (abs : Bool) (cs : List Str) (c : Str) :
    ∃ pre, renderPath abs (cs ++ [c]) = pre ++ c := by
  by_cases h0 : cs = []
  · subst h0
    exact ⟨renderPath abs [], by cases abs <;> simp [renderPath, joinSlash]⟩
  · exact ⟨renderPath abs cs ++ ['/'], by cases abs <;> simp [renderPath, joinSlash_snoc _ _ h0]⟩

theorem dropWhile_rev_append (pre c : Str) (hc : '/' ∉ c) (hp : pre = [] ∨ pre.getLast? = some '/') :
    (((pre ++ c).reverse.dropWhile (fun c => !isSlash c)).reverse) = pre := by
  rw [List.reverse_append, List.dropWhile_append]
  have h1 : c.reverse.dropWhile (fun c => !isSlash c) = [] := by
    apply dropWhile_all
    intro x hx
    have := no_slash_isSlash hc x (by simpa using hx)
    simp [this]
  rw [h1]
  simp only [List.isEmpty_nil, if_true]
  rcases hp with rfl | hp
  · rfl
  · cases hr : pre.reverse with
    | nil => simp at hr; subst hr; rfl
    | cons x r =>
      have hpr : pre = r.reverse ++ [x] := by
        have := congrArg List.reverse hr; simpa using this
      have hx : x = '/' := by rw [hpr] at hp; simpa using hp
      subst hx
      rw [List.dropWhile_cons]
      simp only [show (!isSlash '/') = false from rfl, Bool.false_eq_true, if_false]
      rw [← hr, List.reverse_reverse]

theorem trimTrail_slash (s : Str) : trimTrail (s ++ ['/']) = trimTrail s := by
  unfold trimTrail
  rw [List.reverse_append]
  simp [trimTrailRev]

theorem pop_render (abs : Bool) (cs : List Str) (h : ∀ c ∈ cs, ProperComp c) :
    pop (renderPath abs cs) = renderPath abs cs.dropLast := by
  induction cs using list_snoc_induction with
  | h0 => cases abs <;> decide
  | h1 cs c _ =>
    have hc := h c (by simp)
    have hcs : ∀ c ∈ cs, ProperComp c := fun c hc => h c (by simp [hc])
    rw [List.dropLast_concat]
    unfold pop parent
    rw [components_render abs _ h]
    simp only [List.map_append, List.map_cons, List.map_nil, ← List.append_assoc, List.getLast?_concat]
    rw [renderPath_isAbs _ _ h, Option.getD_some]
    by_cases h0 : cs = []
    · subst h0
      have ht : trimTrail (renderPath abs ([] ++ [c])) = renderPath abs [c] := by
        cases abs
        · exact trimTrail_proper [] c hc
        · exact trimTrail_proper ['/'] c hc
      rw [ht]
      have hd : ((renderPath abs [c]).reverse.dropWhile (fun c => !isSlash c)).reverse = if abs then ['/'] else [] := by
        cases abs
        · exact dropWhile_rev_append [] c hc.2.1 (.inl rfl)
        · exact dropWhile_rev_append ['/'] c hc.2.1 (.inr rfl)
      rw [hd]
      cases abs <;> decide
    · have hsplit : renderPath abs (cs ++ [c]) = (renderPath abs cs ++ ['/']) ++ c := by
        cases abs <;> simp [renderPath, joinSlash_snoc _ _ h0]
      rw [hsplit, trimTrail_proper _ _ hc, dropWhile_rev_append _ _ hc.2.1 (.inr (by simp)), trimTrail_slash]
      obtain ⟨cs', d, rfl⟩ : ∃ cs' d, cs = cs' ++ [d] :=
        ⟨cs.dropLast, cs.getLast h0, (List.dropLast_concat_getLast h0).symm⟩
      have hd := hcs d (by simp)
      obtain ⟨pre, hpre⟩ := renderPath_snoc abs cs' d
      rw [hpre, trimTrail_proper _ _ hd, if_neg]
      rintro ⟨_, hn⟩
      exact hd.1 (List.append_eq_nil_iff.mp hn).2

end Path
end DumpSyms
