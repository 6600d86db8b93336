import Verif.Model.Cache
import Verif.Spec.Cache
import Verif.Proof.Path
/-!
# Parsing symbol paths
-/
namespace DumpSyms
namespace Cache

theorem fields_iff {sep : Char → Prop} {p : Char → Bool} (hp : ∀ c, p c = true ↔ sep c) (s : Str) (fs : List Str) :
    Fields sep s fs ↔ splitOn p s = fs := by
  constructor
  · intro h
    induction h with
    | last a ha =>
      exact splitOn_no_sep p a (fun c hc => by
        have := ha c hc
        rw [← hp] at this
        simpa using this)
    | more a c s fs ha hc _ ih =>
      rw [splitOn_append_sep p a c s ((hp c).mpr hc), ih, splitOn_no_sep p a (fun c hc => by
        have := ha c hc
        rw [← hp] at this
        simpa using this)]
      rfl
  · rintro rfl
    induction s with
    | nil => exact .last [] (by simp)
    | cons c s ih =>
      rw [splitOn]
      split
      · rename_i hc
        exact .more [] c s _ (by simp) ((hp c).mp hc) ih
      · rename_i hc
        have hn : ¬ sep c := fun h => hc ((hp c).mpr h)
        cases hs : splitOn p s with
        | nil => exact absurd hs (splitOn_ne_nil p s)
        | cons w ws =>
          rw [hs] at ih
          simp only
          cases ih with
          | last a ha =>
            refine .last _ ?_
            intro x hx
            rcases List.mem_cons.mp hx with rfl | hx
            · exact hn
            · exact ha x hx
          | more a d t fs ha hd ht =>
            refine .more (c :: w) d t ws ?_ hd ht
            intro x hx
            rcases List.mem_cons.mp hx with rfl | hx
            · exact hn
            · exact ha x hx

theorem dropWhile_split (p : Char → Bool) (s : Str) :
    ∃ l, s = l ++ s.dropWhile p ∧ (∀ c ∈ l, p c = true) ∧ ∀ c, (s.dropWhile p).head? = some c → p c = false := by
  induction s with
  | nil => exact ⟨[], rfl, by simp, by simp⟩
  | cons a s ih =>
    obtain ⟨l, h1, h2, h3⟩ := ih
    by_cases ha : p a = true
    · refine ⟨a :: l, ?_, ?_, ?_⟩
      · rw [List.dropWhile_cons_of_pos ha, List.cons_append, ← h1]
      · intro c hc
        rcases List.mem_cons.mp hc with rfl | hc
        · exact ha
        · exact h2 c hc
      · rw [List.dropWhile_cons_of_pos ha]; exact h3
    · refine ⟨[], ?_, by simp, ?_⟩
      · rw [List.dropWhile_cons_of_neg ha]; rfl
      · rw [List.dropWhile_cons_of_neg ha]
        intro c hc
        simp only [List.head?_cons, Option.some.injEq] at hc
        subst hc
        simpa using ha

theorem trim_trimmed (s : Str) : Trimmed s (trim s) := by
  obtain ⟨l, h1, h2, h3⟩ := dropWhile_split isWhitespace s
  unfold trim trimEnd trimStart
  generalize s.dropWhile isWhitespace = m at h1 h3
  obtain ⟨r, e1, e2, e3⟩ := dropWhile_split isWhitespace m.reverse
  generalize m.reverse.dropWhile isWhitespace = k at e1 e3
  have hm : m = k.reverse ++ r.reverse := by
    have := congrArg List.reverse e1
    simpa using this
  refine ⟨l, r.reverse, by rw [h1, hm]; simp, h2, by simpa using e2, ?_, ?_⟩
  · intro c hc
    apply h3
    rw [hm]
    cases hk : k.reverse with
    | nil => rw [hk] at hc; cases hc
    | cons x xs => rw [hk] at hc; simpa using hc
  · intro c hc
    apply e3
    rw [List.getLast?_reverse] at hc
    exact hc

theorem trimmed_eq {s t : Str} (h : Trimmed s t) : trim s = t := by
  obtain ⟨l, r, rfl, hl, hr, h1, h2⟩ := h
  unfold trim trimEnd trimStart
  rw [List.append_assoc, List.dropWhile_append_of_pos hl]
  cases t with
  | nil =>
    rw [List.nil_append, Path.dropWhile_all _ _ hr]
    rfl
  | cons c t =>
    have hc := h1 c rfl
    rw [List.cons_append, List.dropWhile_cons_of_neg (by simp [hc]), ← List.cons_append, List.reverse_append,
      List.dropWhile_append_of_pos (by simpa using hr)]
    cases ht : (c :: t).reverse with
    | nil => simp at ht
    | cons x xs =>
      have hx := h2 x (by rw [List.getLast?_eq_head?_reverse, ht]; rfl)
      rw [List.dropWhile_cons_of_neg (by simp [hx]), ← ht, List.reverse_reverse]

theorem trimmed_iff {s t : Str} : Trimmed s t ↔ trim s = t :=
  ⟨trimmed_eq, fun h => h ▸ trim_trimmed s⟩

theorem asciiLower_eq {c d : Char} (hd : 'a' ≤ d ∧ d ≤ 'z') : asciiLower c = d ↔ c = d ∨ c = Char.ofNat (d.toNat - 32) := by
  have hd1 : 97 ≤ d.toNat := hd.1
  have hd2 : d.toNat ≤ 122 := hd.2
  have hval : ∀ n, n < 128 → (Char.ofNat n).toNat = n := by
    intro n hn
    unfold Char.ofNat
    rw [dif_pos (.inl (by omega))]
    simp [Char.ofNatAux, Char.toNat]
  have hext : ∀ a b : Char, a.toNat = b.toNat → a = b := by
    intro a b h
    rw [← Char.ofNat_toNat a, ← Char.ofNat_toNat b, h]
  unfold asciiLower
  split
  · rename_i hc
    have hc1 : 65 ≤ c.toNat := hc.1
    have hc2 : c.toNat ≤ 90 := hc.2
    constructor
    · intro h
      right
      apply hext
      have := congrArg Char.toNat h
      rw [hval _ (by omega)] at this
      rw [hval _ (by omega)]
      omega
    · rintro (rfl | h)
      · omega
      · apply hext
        have := congrArg Char.toNat h
        rw [hval _ (by omega)] at this
        rw [hval _ (by omega)]
        omega
  · rename_i hc
    constructor
    · exact .inl
    · rintro (rfl | h)
      · rfl
      · exfalso
        apply hc
        have := congrArg Char.toNat h
        rw [hval _ (by omega)] at this
        show 65 ≤ c.toNat ∧ c.toNat ≤ 90
        omega

theorem isSrv_iff {t : Str} : IsSrv t ↔ toLower t = str% "srv" := by
  unfold IsSrv toLower
  constructor
  · rintro ⟨a, b, c, rfl, ha, hb, hc⟩
    rcases ha with rfl | rfl <;> rcases hb with rfl | rfl <;> rcases hc with rfl | rfl <;> decide
  · intro h
    match t, h with
    | [], h => cases h
    | [_], h => simp at h
    | [_, _], h => simp at h
    | _ :: _ :: _ :: _ :: _, h => simp at h
    | [a, b, c], h =>
      simp only [List.map_cons, List.map_nil, List.cons.injEq, and_true] at h
      obtain ⟨h1, h2, h3⟩ := h
      exact ⟨a, b, c, rfl, (asciiLower_eq (by decide)).mp h1, (asciiLower_eq (by decide)).mp h2,
        (asciiLower_eq (by decide)).mp h3⟩

theorem expands_iff {home : Option Str} {s p : Str} : Expands home s p ↔ correctPath home s = p := by
  constructor
  · intro h
    cases h with
    | home r hh => subst hh; rfl
    | noHome _ hh => subst hh; rfl
    | plain _ hs =>
      unfold correctPath
      split
      · rfl
      · split
        · simp at hs
        · rfl
  · rintro rfl
    unfold correctPath
    split
    · exact .noHome _ rfl
    · split
      · exact .home _ rfl
      · rename_i hs
        exact .plain _ (by
          intro h
          cases s with
          | nil => cases h
          | cons c s =>
            simp only [List.head?_cons, Option.some.injEq] at h
            subst h
            exact hs s rfl)

theorem star_fields {s : Str} {fs : List Str} : Fields (· = '*') s fs ↔ splitOn (· == '*') s = fs :=
  fields_iff (by simp) s fs

theorem parseSrv_iff {home : Option Str} {e : Str} {v : Server} :
    parseSrv home e = some v ↔ Entry home e v.cache v.server := by
  constructor
  · intro h
    unfold parseSrv at h
    cases hs : splitOn (· == '*') e with
    | nil => rw [hs] at h; cases h
    | cons a rest =>
      rw [hs] at h
      simp only [List.map_cons] at h
      split at h
      · cases h
      · rename_i hsrv
        have hsrv := isSrv_iff.mpr (Decidable.not_not.mp hsrv)
        match rest, hs, h with
        | [], hs, h =>
          cases h
          exact .srv (star_fields.mpr hs) (trim_trimmed a) hsrv
        | [b], hs, h =>
          cases h
          exact .server (star_fields.mpr hs) (trim_trimmed a) hsrv (trim_trimmed b)
        | [b, c], hs, h =>
          cases h
          exact .cached (star_fields.mpr hs) (trim_trimmed a) hsrv (trim_trimmed b) (expands_iff.mpr rfl) (trim_trimmed c)
        | b :: c :: d :: r, hs, h => cases h
  · intro h
    obtain ⟨cache, server⟩ := v
    simp only at h
    unfold parseSrv
    cases h with
    | srv hf ha hsrv =>
      rw [star_fields.mp hf]
      simp only [List.map_cons, List.map_nil, trimmed_eq ha, isSrv_iff.mp hsrv]
      rfl
    | server hf ha hsrv hb =>
      rw [star_fields.mp hf]
      simp only [List.map_cons, List.map_nil, trimmed_eq ha, isSrv_iff.mp hsrv, trimmed_eq hb]
      rfl
    | cached hf ha hsrv hb hx hc =>
      rw [star_fields.mp hf]
      simp only [List.map_cons, List.map_nil, trimmed_eq ha, isSrv_iff.mp hsrv, trimmed_eq hb, trimmed_eq hc,
        expands_iff.mp hx]
      rfl

theorem entries_iff {home : Option Str} (es : List Str) (vs : List (Option Str × Str)) :
    Entries home es vs ↔ (es.filterMap (parseSrv home)).map (fun v => (v.cache, v.server)) = vs := by
  induction es generalizing vs with
  | nil =>
    constructor
    · intro h; cases h; rfl
    · rintro rfl; exact .nil
  | cons e es ih =>
    constructor
    · intro h
      cases h with
      | keep h1 h2 =>
        rw [List.filterMap_cons_some (parseSrv_iff (v := ⟨_, _⟩).mpr h1), List.map_cons, (ih _).mp h2]
      | skip h1 h2 =>
        have : parseSrv home e = none := by
          cases hp : parseSrv home e with
          | none => rfl
          | some v => exact absurd (parseSrv_iff.mp hp) (h1 _ _)
        rw [List.filterMap_cons_none this, (ih _).mp h2]
    · rintro rfl
      cases hp : parseSrv home e with
      | none =>
        rw [List.filterMap_cons_none hp]
        refine .skip (fun c s h => ?_) ((ih _).mpr rfl)
        have := parseSrv_iff (v := ⟨c, s⟩).mpr h
        rw [hp] at this; cases this
      | some v =>
        rw [List.filterMap_cons_some hp, List.map_cons]
        exact .keep (parseSrv_iff.mp hp) ((ih _).mpr rfl)

end Cache
end DumpSyms
