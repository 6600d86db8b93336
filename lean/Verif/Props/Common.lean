import Verif.Spec.Names
/-!
# C54: clean-up of symbol names
-/
namespace DumpSyms
open Common

theorem mem_keywords (k : Str) : k ∈ keywords ↔ k ∈ compilerWords := by
  simp only [keywords, compilerWords, List.mem_cons, List.not_mem_nil, or_false]
  constructor <;> (intro h; rcases h with h | h | h | h | h | h | h | h <;> simp [h])

theorem Suffixes.append {a b : Str} (ha : Suffixes a) (hb : Suffixes b) : Suffixes (a ++ b) := by
  induction ha with
  | one p hp => exact .cons p b hp hb
  | cons p r hp _ ih => rw [List.append_assoc]; exact .cons _ _ hp ih

theorem suffix1_ne_nil {p : Str} (h : Suffix1 p) : p ≠ [] := by
  cases h <;> simp

theorem suffixes_ne_nil {p : Str} (h : Suffixes p) : p ≠ [] := by
  cases h with
  | one _ h => exact suffix1_ne_nil h
  | cons p r h _ => have := suffix1_ne_nil h; simp [this]

theorem afterPrefix_iff (pre s r : Str) : afterPrefix pre s = some r ↔ s = pre ++ r := by
  unfold afterPrefix
  constructor
  · intro h
    split at h
    · rename_i hp
      simp at h; subst h
      rw [List.isPrefixOf_iff_prefix] at hp
      obtain ⟨t, rfl⟩ := hp
      simp
    · cases h
  · rintro rfl
    rw [if_pos (by rw [List.isPrefixOf_iff_prefix]; exact List.prefix_append pre r)]
    simp

theorem isDigit09_iff (c : Char) : isDigit09 c = true ↔ '0' ≤ c ∧ c ≤ '9' := by
  simp [isDigit09]

theorem digitRests_iff (s r : Str) :
    r ∈ digitRests s ↔ ∃ ds, ds ≠ [] ∧ (∀ c ∈ ds, '0' ≤ c ∧ c ≤ '9') ∧ s = ds ++ r := by
  induction s with
  | nil =>
    simp only [digitRests, List.not_mem_nil, false_iff, not_exists]
    rintro ds ⟨h, _, he⟩
    exact h (List.append_eq_nil_iff.mp he.symm).1
  | cons c s ih =>
    unfold digitRests
    by_cases hc : isDigit09 c = true
    · rw [if_pos hc, List.mem_cons, ih]
      constructor
      · rintro (rfl | ⟨ds, h1, h2, rfl⟩)
        · exact ⟨[c], by simp, by simpa using (isDigit09_iff c).mp hc, rfl⟩
        · refine ⟨c :: ds, by simp, ?_, rfl⟩
          intro x hx
          rcases List.mem_cons.mp hx with rfl | hx
          · exact (isDigit09_iff _).mp hc
          · exact h2 x hx
      · rintro ⟨ds, h1, h2, h3⟩
        cases ds with
        | nil => exact absurd rfl h1
        | cons d ds =>
          simp at h3
          obtain ⟨rfl, h3⟩ := h3
          by_cases hd : ds = []
          · subst hd; left; simpa using h3.symm
          · right; exact ⟨ds, hd, fun x hx => h2 x (by simp [hx]), h3⟩
    · rw [if_neg hc]
      simp only [List.not_mem_nil, false_iff, not_exists]
      rintro ds ⟨h1, h2, h3⟩
      cases ds with
      | nil => exact absurd rfl h1
      | cons d ds =>
        simp at h3
        exact hc ((isDigit09_iff c).mpr (h3.1 ▸ h2 d (by simp)))

theorem numRests_iff (s r : Str) :
    r ∈ numRests s ↔ r = s ∨ ∃ ds, ds ≠ [] ∧ (∀ c ∈ ds, '0' ≤ c ∧ c ≤ '9') ∧ s = '.' :: ds ++ r := by
  unfold numRests
  rw [List.mem_cons]
  apply or_congr Iff.rfl
  split
  · rename_i t
    rw [digitRests_iff]
    simp
  · rename_i hne
    simp only [List.not_mem_nil, false_iff, not_exists]
    rintro ds ⟨_, _, h⟩
    exact hne (ds ++ r) (by simpa using h)

theorem spaceRests_iff (s r : Str) : r ∈ spaceRests s ↔ ∃ p, (p = [] ∨ p = [' ']) ∧ s = p ++ r := by
  unfold spaceRests
  rw [List.mem_cons]
  constructor
  · rintro (rfl | h)
    · exact ⟨[], .inl rfl, rfl⟩
    · split at h
      · simp at h; subst h; exact ⟨[' '], .inr rfl, rfl⟩
      · simp at h
  · rintro ⟨p, rfl | rfl, rfl⟩
    · exact .inl rfl
    · right; simp

theorem afterBracket_iff (s r : Str) : afterBracket s = some r ↔ ∃ body, ']' ∉ body ∧ s = body ++ ']' :: r := by
  induction s with
  | nil =>
    simp only [afterBracket, reduceCtorEq, false_iff, not_exists]
    rintro body ⟨_, h⟩
    have := congrArg List.length h; simp at this
  | cons c s ih =>
    unfold afterBracket
    by_cases hc : c = ']'
    · subst hc
      rw [if_pos rfl]
      constructor
      · intro h; simp at h; subst h; exact ⟨[], by simp, rfl⟩
      · rintro ⟨body, h1, h2⟩
        cases body with
        | nil => simp at h2; simp [h2]
        | cons b body => simp at h2; exact absurd (by rw [← h2.1]; exact List.mem_cons_self) h1
    · rw [if_neg hc, ih]
      constructor
      · rintro ⟨body, h1, rfl⟩
        exact ⟨c :: body, by simp [h1]; exact fun h => hc h.symm, rfl⟩
      · rintro ⟨body, h1, h2⟩
        cases body with
        | nil => simp at h2; exact absurd h2.1 hc
        | cons b body => simp at h2 h1; exact ⟨body, h1.2, h2.2⟩

theorem pieceRests_iff (s r : Str) : r ∈ pieceRests s ↔ ∃ p, Suffix1 p ∧ s = p ++ r := by
  unfold pieceRests
  rw [List.mem_append]
  constructor
  · rintro (h | h)
    · unfold keywordRests at h
      split at h
      · rename_i t
        simp only [List.mem_flatMap, List.mem_filterMap] at h
        obtain ⟨u, ⟨k, hk, hu⟩, hr⟩ := h
        rw [afterPrefix_iff] at hu
        subst hu
        rcases (numRests_iff u r).mp hr with rfl | ⟨ds, h1, h2, rfl⟩
        · exact ⟨'.' :: k, .keyword k ((mem_keywords k).mp hk), rfl⟩
        · exact ⟨'.' :: k ++ '.' :: ds, .numbered k ds ((mem_keywords k).mp hk) h1 h2, by simp⟩
      · simp at h
    · unfold cloneRests at h
      simp only [List.mem_flatMap, List.mem_filterMap] at h
      obtain ⟨u, ⟨v, ⟨w, hw, hv⟩, hu⟩, hr⟩ := h
      obtain ⟨pre, hpre, rfl⟩ := (spaceRests_iff _ _).mp hw
      rw [afterPrefix_iff] at hv
      subst hv
      obtain ⟨body, hb, rfl⟩ := (afterBracket_iff _ _).mp hu
      obtain ⟨post, hpost, rfl⟩ := (spaceRests_iff _ _).mp hr
      exact ⟨_, .clone pre body post hpre hpost hb, by simp⟩
  · rintro ⟨p, hp, rfl⟩
    cases hp with
    | keyword k hk =>
      left
      simp only [List.cons_append, keywordRests, List.mem_flatMap, List.mem_filterMap]
      exact ⟨r, ⟨k, (mem_keywords k).mpr hk, (afterPrefix_iff _ _ _).mpr rfl⟩, (numRests_iff _ _).mpr (.inl rfl)⟩
    | numbered k ds hk h1 h2 =>
      left
      simp only [List.cons_append, keywordRests, List.mem_flatMap, List.mem_filterMap]
      exact ⟨'.' :: ds ++ r, ⟨k, (mem_keywords k).mpr hk, (afterPrefix_iff _ _ _).mpr (by simp)⟩, (numRests_iff _ _).mpr (.inr ⟨ds, h1, h2, rfl⟩)⟩
    | clone pre body post hpre hpost hb =>
      right
      simp only [cloneRests, List.mem_flatMap, List.mem_filterMap]
      refine ⟨post ++ r, ⟨body ++ ']' :: (post ++ r), ⟨str% "[clone" ++ (body ++ ']' :: (post ++ r)), ?_, ?_⟩, ?_⟩, ?_⟩
      · exact (spaceRests_iff _ _).mpr ⟨pre, hpre, by simp⟩
      · exact (afterPrefix_iff _ _ _).mpr rfl
      · exact (afterBracket_iff _ _).mpr ⟨body, hb, rfl⟩
      · exact (spaceRests_iff _ _).mpr ⟨post, hpost, rfl⟩

theorem matchesAll_iff (n : Nat) (s : Str) (h : s.length ≤ n) : matchesAll n s = true ↔ Suffixes s := by
  induction n generalizing s with
  | zero =>
    have : s = [] := List.eq_nil_of_length_eq_zero (by omega)
    subst this
    simp only [matchesAll, Bool.false_eq_true, false_iff]
    intro hs; exact suffixes_ne_nil hs rfl
  | succ n ih =>
    simp only [matchesAll, List.any_eq_true, Bool.or_eq_true, List.isEmpty_iff]
    constructor
    · rintro ⟨r, hr, h2⟩
      obtain ⟨p, hp, rfl⟩ := (pieceRests_iff _ _).mp hr
      rcases h2 with rfl | h2
      · rw [List.append_nil]; exact .one p hp
      · have := suffix1_ne_nil hp
        have hl : 0 < p.length := List.length_pos_iff.mpr this
        simp at h
        exact .cons p r hp ((ih r (by omega)).mp h2)
    · intro hs
      cases hs with
      | one _ hp => exact ⟨[], (pieceRests_iff _ _).mpr ⟨s, hp, by simp⟩, .inl rfl⟩
      | cons p r hp hr =>
        have := suffix1_ne_nil hp
        have hl : 0 < p.length := List.length_pos_iff.mpr this
        simp at h
        exact ⟨r, (pieceRests_iff _ _).mpr ⟨p, hp, rfl⟩, .inr ((ih r (by omega)).mpr hr)⟩

theorem stripSuffix_spec (s : Str) :
    ∃ suf, s = stripSuffix s ++ suf ∧ (suf = [] ∨ Suffixes suf) ∧
      ∀ pre' suf', s = pre' ++ suf' → Suffixes suf' → (stripSuffix s).length ≤ pre'.length := by
  induction s with
  | nil =>
    refine ⟨[], rfl, .inl rfl, ?_⟩
    intro pre' suf' _ _; simp [stripSuffix]
  | cons c s ih =>
    unfold stripSuffix
    by_cases hm : matchesAll (s.length + 1) (c :: s) = true
    · rw [if_pos hm]
      exact ⟨c :: s, rfl, .inr ((matchesAll_iff _ _ (by simp)).mp hm), by simp⟩
    · rw [if_neg hm]
      obtain ⟨suf, h1, h2, h3⟩ := ih
      refine ⟨suf, by rw [List.cons_append, ← h1], h2, ?_⟩
      intro pre' suf' he hs
      cases pre' with
      | nil =>
        exfalso; apply hm
        rw [matchesAll_iff _ _ (by simp)]
        simp only [List.nil_append] at he
        rw [he]; exact hs
      | cons x pre' =>
        simp at he
        have := h3 pre' suf' he.2 hs
        simpa using this

/-- **C54 (suffixes).** The cleaned text is a prefix of the name, what is removed is nothing or a sequence of compiler
suffixes, it is the longest such sequence, and stripping again removes nothing. -/
theorem C54_strip_suffixes (s : Str) :
    (∃ suf, s = stripSuffix s ++ suf ∧ (suf = [] ∨ Suffixes suf)) ∧
    (∀ pre' suf', s = pre' ++ suf' → Suffixes suf' → ∃ more, pre' = stripSuffix s ++ more) ∧
    (∀ pre' suf', stripSuffix s = pre' ++ suf' → ¬ Suffixes suf') ∧
    stripSuffix (stripSuffix s) = stripSuffix s := by
  obtain ⟨suf, h1, h2, h3⟩ := stripSuffix_spec s
  have h4 : ∀ pre' suf', stripSuffix s = pre' ++ suf' → ¬ Suffixes suf' := by
    intro pre' suf' he hs
    have hs2 : Suffixes (suf' ++ suf) := by
      rcases h2 with rfl | h2
      · simpa using hs
      · exact hs.append h2
    have hl := h3 pre' (suf' ++ suf) (by rw [← List.append_assoc, ← he, ← h1]) hs2
    have := suffixes_ne_nil hs
    rw [he] at hl
    simp only [List.length_append] at hl
    exact this (List.eq_nil_of_length_eq_zero (by omega))
  refine ⟨⟨suf, h1, h2⟩, ?_, h4, ?_⟩
  · intro pre' suf' he hs
    have hl := h3 pre' suf' he hs
    have e : stripSuffix s ++ suf = pre' ++ suf' := by rw [← h1, he]
    rcases List.append_eq_append_iff.mp e with ⟨a, ha, _⟩ | ⟨a, ha, _⟩
    · exact ⟨a, ha⟩
    · have : a = [] := by
        have := congrArg List.length ha
        simp at this
        exact List.eq_nil_of_length_eq_zero (by omega)
      subst this
      exact ⟨[], by simpa using ha.symm⟩
  · obtain ⟨suf2, g1, g2, _⟩ := stripSuffix_spec (stripSuffix s)
    rcases g2 with rfl | g2
    · simpa using g1.symm
    · exact absurd g2 (h4 _ _ g1)

example : stripSuffix (str% "f.cold.llvm.12 [clone .isra.0]") = str% "f" := by decide

/-! ### The spelling of anonymous namespaces -/

theorem renamed_replaceAllN (n : Nat) (s : Str) (h : s.length ≤ n) : Renamed s (replaceAllN anonPat anonRep n s) := by
  induction n generalizing s with
  | zero =>
    have : s = [] := List.eq_nil_of_length_eq_zero (by omega)
    subst this; exact .nil
  | succ n ih =>
    cases s with
    | nil => exact .nil
    | cons c s =>
      simp at h
      unfold replaceAllN
      cases ha : afterPrefix anonPat (c :: s) with
      | some r =>
        rw [afterPrefix_iff] at ha
        rw [ha]
        refine .hit r _ (ih r ?_)
        have := congrArg List.length ha
        simp [anonPat] at this
        omega
      | none =>
        refine .char c s _ ?_ (ih s h)
        rintro ⟨r, hr⟩
        have := (afterPrefix_iff anonPat (c :: s) r).mpr hr
        rw [ha] at this; cases this

theorem renamed_unique {s t u : Str} (h1 : Renamed s t) (h2 : Renamed s u) : t = u := by
  induction h1 generalizing u with
  | nil => cases h2; rfl
  | hit s t _ ih =>
    generalize hs : str% "`anonymous namespace'" ++ s = s' at h2
    cases h2 with
    | nil => simp at hs
    | hit s2 t2 h => have := List.append_cancel_left hs; subst this; rw [ih h]
    | char c s2 t2 hn h => exact absurd ⟨s, hs.symm⟩ hn
  | char c s t hn _ ih =>
    generalize hs : c :: s = s' at h2
    cases h2 with
    | nil => simp at hs
    | hit s2 t2 h => exact absurd ⟨s2, hs⟩ hn
    | char c2 s2 t2 hn2 h => simp at hs; obtain ⟨rfl, rfl⟩ := hs; rw [ih h]

/-- **C54 (namespaces).** The second step rewrites exactly the occurrences of the Windows spelling; none is left. -/
theorem C54_anonymous_namespace (s : Str) :
    Renamed s (normalizeAnonymousNamespace s) ∧ (∀ t, Renamed s t → t = normalizeAnonymousNamespace s) := by
  have h := renamed_replaceAllN s.length s (Nat.le_refl _)
  exact ⟨h, fun t ht => renamed_unique ht h⟩

example : normalizeAnonymousNamespace (str% "`anonymous namespace'::f") = str% "(anonymous namespace)::f" := by decide

/-- A parenthesis-free prefix of the result is a prefix of the source. -/
theorem renamed_literal {s : Str} (u r : Str) (hu : '(' ∉ u) (h : Renamed s (u ++ r)) :
    ∃ s', s = u ++ s' ∧ Renamed s' r := by
  induction u generalizing s with
  | nil => exact ⟨s, rfl, h⟩
  | cons c u ih =>
    simp only [List.cons_append] at h
    generalize hx : c :: (u ++ r) = x at h
    cases h with
    | nil => simp at hx
    | hit s t _ => simp at hx; exact absurd (by simp [hx.1]) hu
    | char c2 s t _ h =>
      simp at hx
      obtain ⟨rfl, rfl⟩ := hx
      obtain ⟨s', rfl, h'⟩ := ih (by simp at hu; exact hu.2) h
      exact ⟨s', rfl, h'⟩

theorem prefix_before_bracket {a t w r : Str} (ha : ']' ∉ a) (h : a ++ t = w ++ ']' :: r) :
    ∃ w', w = a ++ w' ∧ t = w' ++ ']' :: r := by
  rcases List.append_eq_append_iff.mp h with ⟨x, hx, hy⟩ | ⟨x, hx, hy⟩
  · exact ⟨x, hx, hy⟩
  · cases x with
    | nil => exact ⟨[], by simpa using hx.symm, by simpa using hy.symm⟩
    | cons y x =>
      simp at hy
      exact absurd (by rw [hx, ← hy.1]; simp) ha

theorem renamed_bracket {s : Str} (w r : Str) (hw : ']' ∉ w) (h : Renamed s (w ++ ']' :: r)) :
    ∃ w' s', s = w' ++ ']' :: s' ∧ ']' ∉ w' ∧ Renamed s' r := by
  generalize hx : w ++ ']' :: r = x at h
  induction h generalizing w with
  | nil => have := congrArg List.length hx; simp at this
  | hit s t h ih =>
    obtain ⟨w2, rfl, ht⟩ := prefix_before_bracket (by decide) hx.symm
    obtain ⟨w', s', rfl, hw', hs'⟩ := ih w2 (fun hm => hw (List.mem_append_right _ hm)) ht.symm
    refine ⟨str% "`anonymous namespace'" ++ w', s', by simp, ?_, hs'⟩
    rw [List.mem_append]
    rintro (hm | hm)
    · revert hm; decide
    · exact hw' hm
  | char c s t hn h ih =>
    cases w with
    | nil =>
      simp at hx
      obtain ⟨rfl, rfl⟩ := hx
      exact ⟨[], s, rfl, by simp, h⟩
    | cons y w =>
      simp at hx
      obtain ⟨rfl, rfl⟩ := hx
      simp at hw
      obtain ⟨w', s', rfl, hw', hs'⟩ := ih w hw.2 rfl
      exact ⟨y :: w', s', rfl, by simp; exact ⟨hw.1, hw'⟩, hs'⟩

/-- A compiler suffix of the result comes from a compiler suffix of the source. -/
theorem renamed_suffix1 {s : Str} (p r : Str) (hp : Suffix1 p) (h : Renamed s (p ++ r)) :
    ∃ p' s', s = p' ++ s' ∧ Suffix1 p' ∧ Renamed s' r := by
  have hkw : ∀ k ∈ compilerWords, '(' ∉ k := by decide
  cases hp with
  | keyword k hk =>
    obtain ⟨s', rfl, h'⟩ := renamed_literal ('.' :: k) r (by simp [hkw k hk]) h
    exact ⟨_, s', rfl, .keyword k hk, h'⟩
  | numbered k ds hk h1 h2 =>
    have hd : '(' ∉ ds := by
      intro hm
      have := h2 _ hm
      revert this; decide
    obtain ⟨s', rfl, h'⟩ := renamed_literal ('.' :: k ++ '.' :: ds) r (by simp [hkw k hk, hd]) h
    exact ⟨_, s', rfl, .numbered k ds hk h1 h2, h'⟩
  | clone pre body post hpre hpost hb =>
    have e : pre ++ (str% "[clone" ++ (body ++ ']' :: post)) ++ r =
        (pre ++ str% "[clone") ++ (body ++ ']' :: (post ++ r)) := by simp
    rw [e] at h
    obtain ⟨s1, rfl, h1⟩ := renamed_literal (pre ++ str% "[clone") _ (by
      rcases hpre with rfl | rfl <;> decide) h
    obtain ⟨b', s2, rfl, hb', h2⟩ := renamed_bracket body _ hb h1
    obtain ⟨s3, rfl, h3⟩ := renamed_literal post r (by rcases hpost with rfl | rfl <;> decide) h2
    exact ⟨_, s3, by simp, .clone pre b' post hpre hpost hb', h3⟩

theorem renamed_suffixes {s t : Str} (ht : Suffixes t) (h : Renamed s t) : Suffixes s := by
  induction ht generalizing s with
  | one p hp =>
    rw [← List.append_nil p] at h
    obtain ⟨p', s', rfl, hp', hs'⟩ := renamed_suffix1 p [] hp h
    cases hs'
    simpa using Suffixes.one p' hp'
  | cons p r hp _ ih =>
    obtain ⟨p', s', rfl, hp', hs'⟩ := renamed_suffix1 p r hp h
    exact .cons p' s' hp' (ih hs')

theorem suffix1_head {p : Str} (h : Suffix1 p) :
    ∃ q, p = '.' :: q ∨ p = '[' :: q ∨ p = ' ' :: '[' :: q := by
  cases h with
  | keyword k _ => exact ⟨k, .inl rfl⟩
  | numbered k ds _ _ _ => exact ⟨_, .inl rfl⟩
  | clone pre body post hpre _ _ =>
    rcases hpre with rfl | rfl
    · exact ⟨_, .inr (.inl rfl)⟩
    · exact ⟨_, .inr (.inr rfl)⟩

theorem suffixes_head {p : Str} (h : Suffixes p) :
    ∃ q, p = '.' :: q ∨ p = '[' :: q ∨ p = ' ' :: '[' :: q := by
  cases h with
  | one _ h => exact suffix1_head h
  | cons p r h _ =>
    obtain ⟨q, rfl | rfl | rfl⟩ := suffix1_head h
    · exact ⟨q ++ r, .inl rfl⟩
    · exact ⟨q ++ r, .inr (.inl rfl)⟩
    · exact ⟨q ++ r, .inr (.inr rfl)⟩

/-- Compiler suffixes at the end of the result start where a suffix of the source starts. -/
theorem renamed_split {s t : Str} (h : Renamed s t) (pre suf : Str) (he : t = pre ++ suf) (hs : Suffixes suf) :
    ∃ pre' suf', s = pre' ++ suf' ∧ Suffixes suf' := by
  induction h generalizing pre with
  | nil =>
    have := suffixes_ne_nil hs
    exact absurd (List.append_eq_nil_iff.mp he.symm).2 this
  | hit s t h ih =>
    rcases List.append_eq_append_iff.mp he with ⟨a, ha, hb⟩ | ⟨a, ha, hb⟩
    · obtain ⟨p', s', rfl, h'⟩ := ih a hb
      exact ⟨_, s', by rw [← List.append_assoc], h'⟩
    · cases a with
      | nil =>
        rw [List.nil_append] at hb
        obtain ⟨p', s', rfl, h'⟩ := ih [] (by simpa using hb.symm)
        exact ⟨_, s', by rw [← List.append_assoc], h'⟩
      | cons y a =>
        exfalso
        -- the suffix would start inside the replacement text
        have key : ∀ (n : Nat) (pre a : Str) (y : Char), pre.length = n →
            str% "(anonymous namespace)" = pre ++ y :: a → ∀ t q : Str,
            ¬ (y :: a ++ t = '.' :: q ∨ y :: a ++ t = '[' :: q ∨ y :: a ++ t = ' ' :: '[' :: q) := by
          intro n pre a y hn he t q
          have h1 := congrArg (fun l => l[n]?) he
          have h2 := congrArg (fun l => l[n + 1]?) he
          simp only [← hn] at h1 h2
          simp only [List.getElem?_append_right (Nat.le_refl _), Nat.sub_self, List.getElem?_cons_zero] at h1
          rw [List.getElem?_append_right (by omega), Nat.add_sub_cancel_left, List.getElem?_cons_succ] at h2
          rintro (h | h | h)
          · simp at h
            rw [h.1] at h1
            have := List.mem_of_getElem? h1
            revert this; decide
          · simp at h
            rw [h.1] at h1
            have := List.mem_of_getElem? h1
            revert this; decide
          · simp at h
            obtain ⟨rfl, h⟩ := h
            have hp : pre.length < 21 := by
              have := congrArg List.length he; simp at this; omega
            cases a with
            | nil =>
              have := congrArg List.getLast? he
              rw [List.getLast?_append] at this
              simp at this
            | cons z a =>
              simp at h
              replace h2 : (str% "(anonymous namespace)")[pre.length + 1]? = some z := h2
              rw [h.1] at h2
              have := List.mem_of_getElem? h2
              revert this; decide
        obtain ⟨q, hq⟩ := suffixes_head hs
        rw [hb] at hq
        exact key pre.length pre a y rfl ha t q hq
  | char c s t hn h ih =>
    cases pre with
    | nil =>
      simp only [List.nil_append] at he
      refine ⟨[], c :: s, rfl, renamed_suffixes hs ?_⟩
      rw [← he]; exact .char c s t hn h
    | cons x pre =>
      simp at he
      obtain ⟨p', s', rfl, h'⟩ := ih pre he.2
      exact ⟨c :: p', s', rfl, h'⟩

/-- Nothing in the replacement output can be replaced again. -/
theorem renamed_idem {s t : Str} (h : Renamed s t) : Renamed t t := by
  have hno : ∀ {s t : Str}, Renamed s t → ¬ ∃ pre r, t = pre ++ (str% "`anonymous namespace'" ++ r) := by
    intro s t h
    induction h with
    | nil => rintro ⟨pre, r, he⟩; simp at he
    | hit s t h ih =>
      rintro ⟨pre, r, he⟩
      rcases List.append_eq_append_iff.mp he with ⟨a, ha, hb⟩ | ⟨a, ha, hb⟩
      · exact ih ⟨a, r, hb⟩
      · cases a with
        | nil => exact ih ⟨[], r, by simpa using hb.symm⟩
        | cons y a =>
          simp at hb
          have : '`' ∈ (str% "(anonymous namespace)") := by rw [ha, ← hb.1]; simp
          revert this; decide
    | char c s t hn h ih =>
      rintro ⟨pre, r, he⟩
      cases pre with
      | nil =>
        simp only [List.nil_append] at he
        have hr : Renamed (c :: s) (str% "`anonymous namespace'" ++ r) := by rw [← he]; exact .char c s t hn h
        obtain ⟨s', hs', _⟩ := renamed_literal (str% "`anonymous namespace'") r (by decide) hr
        exact hn ⟨s', hs'⟩
      | cons x pre =>
        simp at he
        exact ih ⟨pre, r, he.2⟩
  have key : ∀ t : Str, (¬ ∃ pre r, t = pre ++ (str% "`anonymous namespace'" ++ r)) → Renamed t t := by
    intro t
    induction t with
    | nil => intro _; exact .nil
    | cons c t ih =>
      intro hn
      refine .char c t t ?_ (ih ?_)
      · rintro ⟨r, hr⟩; exact hn ⟨[], r, hr⟩
      · rintro ⟨pre, r, rfl⟩; exact hn ⟨c :: pre, r, rfl⟩
  exact key t (hno h)

theorem cleaned_fix (n : Name) : Cleaned n.text (fixSymbolName n).text := by
  obtain ⟨suf, h1, h2, h3⟩ := stripSuffix_spec n.text
  refine ⟨_, suf, h1, h2, ?_, (C54_anonymous_namespace (stripSuffix n.text)).1⟩
  intro pre' suf' he hs
  have hl := h3 pre' suf' he hs
  have e := congrArg List.length (h1.symm.trans he)
  simp only [List.length_append] at e
  omega

theorem Cleaned.unique {s t u : Str} (h1 : Cleaned s t) (h2 : Cleaned s u) : t = u := by
  obtain ⟨p1, s1, a1, b1, c1, d1⟩ := h1
  obtain ⟨p2, s2, a2, b2, c2, d2⟩ := h2
  have hl : s1.length = s2.length := by
    have x : s2.length ≤ s1.length := by
      rcases b2 with rfl | b2
      · simp
      · exact c1 _ _ a2 b2
    have y : s1.length ≤ s2.length := by
      rcases b1 with rfl | b1
      · simp
      · exact c2 _ _ a1 b1
    omega
  obtain ⟨rfl, _⟩ := List.append_inj' (a1.symm.trans a2) hl
  exact renamed_unique d1 d2

/-- **C54.** The cleaned name is the one of the specification, and the only one. -/
theorem C54_cleaned (n : Name) (t : Str) : Cleaned n.text t ↔ t = (fixSymbolName n).text :=
  ⟨fun h => h.unique (cleaned_fix n), fun h => h ▸ cleaned_fix n⟩

/-- **C54.** Cleaning a name: strip the suffixes, then rename anonymous namespaces.  The mangling state and language are
kept, no further suffix can be removed from the result, and cleaning twice equals cleaning once. -/
theorem C54_fix_symbol_name (n : Name) :
    (fixSymbolName n).mangled = n.mangled ∧ (fixSymbolName n).lang = n.lang ∧
    (∃ pre suf, n.text = pre ++ suf ∧ (suf = [] ∨ Suffixes suf) ∧ Renamed pre (fixSymbolName n).text) ∧
    (∀ pre' suf', (fixSymbolName n).text = pre' ++ suf' → ¬ Suffixes suf') ∧
    fixSymbolName (fixSymbolName n) = fixSymbolName n := by
  obtain ⟨⟨suf, h1, h2⟩, _, h4, _⟩ := C54_strip_suffixes n.text
  have hr := (C54_anonymous_namespace (stripSuffix n.text)).1
  have h5 : ∀ pre' suf', (fixSymbolName n).text = pre' ++ suf' → ¬ Suffixes suf' := by
    intro pre' suf' he hs
    obtain ⟨p, q, hpq, hq⟩ := renamed_split hr pre' suf' he hs
    exact h4 p q hpq hq
  refine ⟨rfl, rfl, ⟨_, suf, h1, h2, hr⟩, h5, ?_⟩
  have e : stripSuffix (fixSymbolName n).text = (fixSymbolName n).text := by
    obtain ⟨⟨suf2, g1, g2⟩, _⟩ := C54_strip_suffixes (fixSymbolName n).text
    rcases g2 with rfl | g2
    · simpa using g1.symm
    · exact absurd g2 (h5 _ _ g1)
  have e2 : normalizeAnonymousNamespace (fixSymbolName n).text = (fixSymbolName n).text :=
    ((C54_anonymous_namespace (fixSymbolName n).text).2 _ (renamed_idem hr)).symm
  generalize hx : fixSymbolName n = x at e e2
  unfold fixSymbolName
  rw [e, e2]

example : fixSymbolName ⟨str% "f<`anonymous namespace'::g>.constprop.0 [clone .cold]", true, .other 2⟩ =
    ⟨str% "f<(anonymous namespace)::g>", true, .other 2⟩ := by decide

example : Suffixes (str% ".constprop.0 [clone .cold]") :=
  (matchesAll_iff 30 _ (by decide)).mp (by decide)

end DumpSyms
