import Verif.Model.Symbol
import Verif.Base.Num
import Verif.Spec.Decorated
/-!
# C41, C42: decorated Windows names
-/
namespace DumpSyms
open WinName

theorem digit?_of_digitVal {c : Char} {d : Nat} (h : digitVal c = some d) (hd : d < 10) : digit? c = some d := by
  unfold digitVal at h
  unfold digit?
  split at h
  · rename_i hc; rw [if_pos hc]; exact h
  · split at h
    · rename_i hc
      have h1 : c.toNat ≥ 97 := by have := hc.1; exact this
      simp at h; omega
    · cases h

theorem digitsVal_of_readDigits {s : Str} : ∀ {acc v : Nat}, readDigits 10 acc s = some v → digitsVal acc s = some v := by
  induction s with
  | nil => intro acc v h; exact h
  | cons c s ih =>
    intro acc v h
    simp only [readDigits] at h
    cases hd : digitVal c with
    | none => rw [hd] at h; cases h
    | some d =>
      rw [hd] at h
      simp only at h
      split at h
      · rename_i hlt
        simp only [digitsVal, digit?_of_digitVal hd hlt]
        exact ih h
      · cases h

theorem parseU32_dec {v : Nat} (h : v < M32) : parseU32 (dec v) = some v := by
  have h1 : digitsVal 0 (dec v) = some v := by
    apply digitsVal_of_readDigits
    exact readDigits_toDigits (by decide) (by decide) v
  have h2 : '+' ∉ dec v := not_mem_dec (by decide)
  unfold parseU32
  have hne := dec_ne_nil v
  have : dropPlus (dec v) = dec v := by
    cases hd : dec v with
    | nil => rfl
    | cons c cs =>
      have : c ≠ '+' := by rintro rfl; apply h2; rw [hd]; simp
      unfold dropPlus
      split
      · rename_i heq; cases heq; exact absurd rfl this
      · rfl
  simp only [this, if_neg hne, h1, if_pos h]

theorem parseU32_at {s : Str} (h : '@' ∈ s) : parseU32 s = none := by
  have key : ∀ (s : Str) (acc : Nat), '@' ∈ s → digitsVal acc s = none := by
    intro s
    induction s with
    | nil => intro _ h; simp at h
    | cons c s ih =>
      intro acc h
      simp only [digitsVal]
      cases hd : digit? c with
      | none => rfl
      | some d =>
        rcases List.mem_cons.mp h with rfl | h
        · simp [digit?] at hd
        · exact ih _ h
  unfold parseU32
  simp only
  have h' : '@' ∈ dropPlus s := by
    unfold dropPlus
    split
    · rcases List.mem_cons.mp h with h | h
      · cases h
      · exact h
    · exact h
  split
  · rfl
  · rw [key _ _ h']

/-- No occurrence of the pattern: nothing to split. -/
theorem rsplitOnce_none {pat : Str} {s : Str} (h : ¬ pat <:+: s) : rsplitOnce pat s = none := by
  induction s with
  | nil => rfl
  | cons c s ih =>
    simp only [rsplitOnce]
    rw [ih (fun hi => h (List.infix_cons hi))]
    simp only
    split
    · rename_i hpre
      exact absurd (List.isPrefixOf_iff_prefix.mp hpre).isInfix h
    · rfl

/-- The last occurrence is where no later one starts. -/
theorem rsplitOnce_last {pat : Str} (hp : pat ≠ []) (a b : Str)
    (h : ¬ pat <:+: (pat ++ b).tail) : rsplitOnce pat (a ++ pat ++ b) = some (a, b) := by
  induction a with
  | nil =>
    cases pat with
    | nil => exact absurd rfl hp
    | cons p ps =>
      simp only [List.nil_append, List.cons_append, List.tail_cons, rsplitOnce] at *
      rw [rsplitOnce_none h]
      have : (p :: ps).isPrefixOf (p :: (ps ++ b)) = true := by
        rw [List.isPrefixOf_iff_prefix]; exact ⟨b, rfl⟩
      simp [this]
  | cons c a ih =>
    simp only [List.cons_append, rsplitOnce] at *
    simp only [List.append_assoc] at *
    rw [ih]

theorem rsplitOnce_spec {pat s a b : Str} (h : rsplitOnce pat s = some (a, b)) : s = a ++ pat ++ b := by
  induction s generalizing a b with
  | nil => cases h
  | cons c s ih =>
    simp only [rsplitOnce] at h
    cases hr : rsplitOnce pat s with
    | some x =>
      obtain ⟨a', b'⟩ := x
      rw [hr] at h
      simp only [Option.some.injEq, Prod.mk.injEq] at h
      obtain ⟨rfl, rfl⟩ := h
      rw [ih hr]; simp
    | none =>
      rw [hr] at h
      simp only at h
      split at h
      · rename_i hpre
        obtain ⟨t, ht⟩ := List.isPrefixOf_iff_prefix.mp hpre
        simp only [Option.some.injEq, Prod.mk.injEq] at h
        obtain ⟨rfl, rfl⟩ := h
        rw [← ht]; simp
      · cases h

theorem at_not_mem_dec (v : Nat) : '@' ∉ dec v := not_mem_dec (by decide)

theorem not_infix_of_not_mem {c : Char} {s : Str} (h : c ∉ s) (ps : Str) : ¬ (c :: ps) <:+: s := by
  intro hi
  exact h (hi.subset (by simp))

/-- `@@` does not occur in `@` followed by text without `@`. -/
theorem not_infix_atat {s : Str} (h : '@' ∉ s) : ¬ ['@', '@'] <:+: '@' :: s := by
  rw [List.infix_cons_iff]
  rintro (hp | hi)
  · rw [List.cons_prefix_cons] at hp
    exact h (hp.2.subset (by simp))
  · exact not_infix_of_not_mem h _ hi

theorem digit?_iff {c : Char} {d : Nat} : digit? c = some d ↔ d < 10 ∧ c = Char.ofNat (48 + d) := by
  unfold digit?
  constructor
  · intro h
    split at h
    · rename_i hc
      have h1 : 48 ≤ c.toNat := hc.1
      have h2 : c.toNat ≤ 57 := hc.2
      simp only [Option.some.injEq] at h
      refine ⟨by omega, ?_⟩
      rw [← h, show 48 + (c.toNat - 48) = c.toNat by omega, Char.ofNat_toNat]
    · cases h
  · rintro ⟨hd, rfl⟩
    have : ∀ d, d < 10 → (if '0' ≤ Char.ofNat (48 + d) ∧ Char.ofNat (48 + d) ≤ '9' then
        some ((Char.ofNat (48 + d)).toNat - 48) else none) = some d := by decide
    exact this d hd

theorem digitsVal_append (s t : Str) : ∀ acc, digitsVal acc (s ++ t) = (digitsVal acc s).bind fun v => digitsVal v t := by
  induction s with
  | nil => intro acc; rfl
  | cons c s ih =>
    intro acc
    simp only [List.cons_append, digitsVal]
    cases digit? c with
    | none => rfl
    | some d => exact ih _

theorem digitsVal_snoc (s : Str) (c : Char) (acc : Nat) :
    digitsVal acc (s ++ [c]) = (digitsVal acc s).bind fun v => (digit? c).map fun d => v * 10 + d := by
  rw [digitsVal_append]
  congr 1
  funext v
  simp only [digitsVal]
  cases digit? c <;> rfl

theorem decimal_iff (s : Str) (v : Nat) : Decimal s v ↔ s ≠ [] ∧ digitsVal 0 s = some v := by
  constructor
  · intro h
    induction h with
    | one d hd =>
      refine ⟨by simp, ?_⟩
      simp [digitsVal, digit?_iff.mpr ⟨hd, rfl⟩]
    | more s v d _ hd ih =>
      refine ⟨by simp, ?_⟩
      rw [digitsVal_snoc, ih.2]
      simp [digit?_iff.mpr ⟨hd, rfl⟩, Nat.mul_comm]
  · rintro ⟨hne, h⟩
    induction hl : s.length generalizing s v with
    | zero => exact absurd (List.length_eq_zero_iff.mp hl) hne
    | succ k ih =>
      rcases List.eq_nil_or_concat s with rfl | ⟨s, c, rfl⟩
      · exact absurd rfl hne
      rw [List.concat_eq_append] at *
      rw [digitsVal_snoc] at h
      cases hs : digitsVal 0 s with
      | none => rw [hs] at h; cases h
      | some u =>
        rw [hs] at h
        simp only [Option.bind_some, Option.map_eq_some_iff] at h
        obtain ⟨d, hd, rfl⟩ := h
        obtain ⟨hd', rfl⟩ := digit?_iff.mp hd
        cases s with
        | nil =>
          cases hs
          simpa using Decimal.one d hd'
        | cons a s =>
          rw [Nat.mul_comm]
          exact .more _ u d (ih _ u (by simp) hs (by simpa using hl)) hd'

theorem parseU32_iff (t : Str) (v : Nat) : parseU32 t = some v ↔ SizeText t v := by
  have aux : ∀ ds : Str, (if ds = [] then none else match digitsVal 0 ds with
      | some v => if v < M32 then some v else none
      | none => none) = some v ↔ v < M32 ∧ Decimal ds v := by
    intro ds
    rw [decimal_iff]
    by_cases hds : ds = []
    · simp [hds]
    · rw [if_neg hds]
      cases digitsVal 0 ds with
      | none => simp
      | some u =>
        by_cases hu : u < M32
        · simp [hu, hds]; rintro rfl; exact hu
        · simp [hu]; rintro h _ rfl; exact hu h
  unfold parseU32
  simp only
  refine (aux (dropPlus t)).trans ?_
  unfold SizeText
  rw [show (4294967296 : Nat) = M32 from rfl]
  have noplus : ∀ ds : Str, ¬ Decimal ('+' :: ds) v := by
    intro ds hd
    have := ((decimal_iff _ _).mp hd).2
    simp [digitsVal, digit?] at this
  constructor
  · rintro ⟨h1, h2⟩
    refine ⟨h1, ?_⟩
    unfold dropPlus at h2
    split at h2
    · exact .inr ⟨_, rfl, h2⟩
    · exact .inl h2
  · rintro ⟨h1, h2 | ⟨ds, rfl, h2⟩⟩
    · refine ⟨h1, ?_⟩
      unfold dropPlus
      split
      · exact absurd h2 (noplus _)
      · exact h2
    · exact ⟨h1, h2⟩

theorem SizeText.no_at {t : Str} {v : Nat} (h : SizeText t v) : '@' ∉ t := by
  intro hm
  have := (parseU32_iff t v).mpr h
  rw [parseU32_at hm] at this
  cases this

theorem SizeText.no_mark {t : Str} {v : Nat} (h : SizeText t v) {c : Char} (hp : c ≠ '+') (hd : ∀ d, d < 10 → c ≠ Char.ofNat (48 + d)) :
    c ∉ t := by
  have aux : ∀ {ds v}, Decimal ds v → c ∉ ds := by
    intro ds v h
    induction h with
    | one d h => simpa using hd d h
    | more s v d _ h ih => simp only [List.mem_append, List.mem_singleton, not_or]; exact ⟨ih, hd d h⟩
  rcases h.2 with h1 | ⟨ds, rfl, h1⟩
  · exact aux h1
  · simp only [List.mem_cons, not_or]; exact ⟨hp, aux h1⟩

theorem SizeText.unique {t : Str} {v w : Nat} (h : SizeText t v) (h' : SizeText t w) : v = w := by
  have := (parseU32_iff t v).mpr h
  rw [(parseU32_iff t w).mpr h'] at this
  cases this; rfl

theorem sizeText_dec {v : Nat} (h : v < M32) : SizeText (dec v) v := (parseU32_iff _ _).mp (parseU32_dec h)

/-- Text split at its last `@`. -/
theorem split_at_unique : ∀ {x y u w : Str}, '@' ∉ u → '@' ∉ w → x ++ '@' :: u = y ++ '@' :: w → x = y ∧ u = w := by
  intro x
  induction x with
  | nil =>
    intro y u w hu hw he
    cases y with
    | nil => simp at he; exact ⟨rfl, he⟩
    | cons c y =>
      simp at he
      exact absurd (he.2 ▸ (by simp : '@' ∈ y ++ '@' :: w)) hu
  | cons c x ih =>
    intro y u w hu hw he
    cases y with
    | nil =>
      simp at he
      exact absurd (he.2 ▸ (by simp : '@' ∈ x ++ '@' :: u)) hw
    | cons d y =>
      simp at he
      obtain ⟨h1, h2⟩ := ih hu hw he.2
      exact ⟨by rw [he.1, h1], h2⟩

theorem sizedSplit_at (s n : Str) (v : Nat) :
    sizedSplit ['@'] s = some (n, v) ↔ ∃ t, SizeText t v ∧ s = n ++ '@' :: t := by
  unfold sizedSplit
  constructor
  · intro h
    cases hr : rsplitOnce ['@'] s with
    | none => rw [hr] at h; cases h
    | some x =>
      obtain ⟨a, b⟩ := x
      rw [hr] at h
      simp only [Option.map_eq_some_iff, Prod.mk.injEq] at h
      obtain ⟨u, hu, rfl, rfl⟩ := h
      exact ⟨b, (parseU32_iff _ _).mp hu, by rw [rsplitOnce_spec hr]; simp⟩
  · rintro ⟨t, ht, rfl⟩
    have := rsplitOnce_last (pat := ['@']) (by simp) n t (by simpa using not_infix_of_not_mem ht.no_at [])
    rw [show n ++ '@' :: t = n ++ ['@'] ++ t by simp, this]
    simp [(parseU32_iff _ _).mpr ht]

theorem sizedSplit_atat (s n : Str) (v : Nat) :
    sizedSplit ['@', '@'] s = some (n, v) ↔ ∃ t, SizeText t v ∧ s = n ++ str% "@@" ++ t := by
  unfold sizedSplit
  constructor
  · intro h
    cases hr : rsplitOnce ['@', '@'] s with
    | none => rw [hr] at h; cases h
    | some x =>
      obtain ⟨a, b⟩ := x
      rw [hr] at h
      simp only [Option.map_eq_some_iff, Prod.mk.injEq] at h
      obtain ⟨u, hu, rfl, rfl⟩ := h
      exact ⟨b, (parseU32_iff _ _).mp hu, rsplitOnce_spec hr⟩
  · rintro ⟨t, ht, rfl⟩
    have := rsplitOnce_last (pat := ['@', '@']) (by simp) n t (by simpa using not_infix_atat ht.no_at)
    rw [this]
    simp [(parseU32_iff _ _).mpr ht]

theorem sizedSplit_at_none {s : Str} (h : ¬ Sized s) : sizedSplit ['@'] s = none := by
  cases hs : sizedSplit ['@'] s with
  | none => rfl
  | some x =>
    obtain ⟨t, ht, rfl⟩ := (sizedSplit_at s x.1 x.2).mp hs
    exact absurd ⟨x.1, t, x.2, ht, by simp⟩ h

theorem sizedSplit_atat_none {s : Str} (h : ¬ Vectorcall s) : sizedSplit ['@', '@'] s = none := by
  cases hs : sizedSplit ['@', '@'] s with
  | none => rfl
  | some x =>
    obtain ⟨t, ht, hst⟩ := (sizedSplit_atat s x.1 x.2).mp hs
    exact absurd ⟨x.1, t, x.2, ht, hst⟩ h

theorem Vectorcall.sized {s : Str} (h : Vectorcall s) : Sized s := by
  obtain ⟨n, t, v, ht, rfl⟩ := h
  exact ⟨n ++ ['@'], t, v, ht, by simp⟩

theorem any_mark (n : Str) : n.any (fun c => c == ':' || c == '(') = true ↔ (':' ∈ n ∨ '(' ∈ n) := by
  simp only [List.any_eq_true, Bool.or_eq_true, beq_iff_eq]
  constructor
  · rintro ⟨c, hc, rfl | rfl⟩
    · exact .inl hc
    · exact .inr hc
  · rintro (h | h)
    · exact ⟨_, h, .inl rfl⟩
    · exact ⟨_, h, .inr rfl⟩

theorem parseUnknown_unmarked {s : Str} (h : ':' ∉ s ∧ '(' ∉ s) : parseUnknown s = parseCDecorated s := by
  unfold parseUnknown
  rw [if_neg]
  intro hc
  rcases (any_mark s).mp hc with h' | h'
  · exact h.1 h'
  · exact h.2 h'

/-- **C41.** The name and parameter size found for a symbol are the ones of its decoration. -/
theorem C41_decorated (s n : Str) (size : Option Nat) :
    parseUnknown s = .ok { name := n, paramSize := size } ↔ Undecorated s n size := by
  constructor
  · intro h
    by_cases hm : ':' ∈ s ∨ '(' ∈ s
    · unfold parseUnknown at h
      rw [if_pos ((any_mark s).mpr hm)] at h
      cases h
      exact .cxx s hm
    · have hm' : ':' ∉ s ∧ '(' ∉ s := ⟨fun h => hm (.inl h), fun h => hm (.inr h)⟩
      rw [parseUnknown_unmarked hm'] at h
      unfold parseCDecorated at h
      cases hv : sizedSplit ['@', '@'] s with
      | some x =>
        rw [hv] at h
        cases h
        obtain ⟨t, ht, rfl⟩ := (sizedSplit_atat s x.1 x.2).mp hv
        simp only [List.mem_append, not_or] at hm'
        exact .vectorcall x.1 t x.2 ht ⟨hm'.1.1.1, hm'.2.1.1⟩
      | none =>
        rw [hv] at h
        have hnv : ¬ Vectorcall s := by
          rintro ⟨n, t, v, ht, he⟩
          rw [(sizedSplit_atat s n v).mpr ⟨t, ht, he⟩] at hv
          cases hv
        unfold parseOther at h
        cases s with
        | nil =>
          cases h
          exact .plain _ hm' hnv (fun c r he => by cases he) (fun r he => by cases he)
        | cons c r =>
          rw [if_neg (by simp)] at h
          simp only [splitAtOne] at h
          by_cases hc : c.toNat < 128
          · rw [if_pos hc] at h
            simp only [Res.bind_ok] at h
            simp only [List.mem_cons, not_or] at hm'
            have hr : ':' ∉ r ∧ '(' ∉ r := ⟨hm'.1.2, hm'.2.2⟩
            cases hz : sizedSplit ['@'] r with
            | some x =>
              obtain ⟨t, ht, rfl⟩ := (sizedSplit_at r x.1 x.2).mp hz
              have hx : ':' ∉ x.1 ∧ '(' ∉ x.1 := ⟨fun h => hr.1 (by simp [h]), fun h => hr.2 (by simp [h])⟩
              rw [hz] at h
              by_cases hu : c = '_'
              · subst hu
                simp only [or_true, if_true] at h
                cases h
                have := Undecorated.stdcall x.1 t x.2 ht hx (by simpa using hnv)
                simpa using this
              · by_cases ha : c = '@'
                · subst ha
                  simp only [true_or, if_true] at h
                  cases h
                  have := Undecorated.fastcall x.1 t x.2 ht hx (by simpa using hnv)
                  simpa using this
                · rw [if_neg (by simp [hu, ha])] at h
                  cases h
                  refine .plain _ (by simpa using hm') hnv (fun c' r' he => by cases he; exact ⟨hc, hu⟩) ?_
                  intro r' he; cases he; exact absurd rfl ha
            | none =>
              have hns : ¬ Sized r := by
                rintro ⟨n, t, v, ht, he⟩
                rw [(sizedSplit_at r n v).mpr ⟨t, ht, by rw [he]; simp⟩] at hz
                cases hz
              rw [hz] at h
              by_cases hu : c = '_'
              · subst hu
                simp only [or_true, if_true] at h
                cases h
                exact .cdecl _ hr hns
              · have : Undecorated (c :: r) (c :: r) none := by
                  refine .plain _ (by simpa using hm') hnv (fun c' r' he => by cases he; exact ⟨hc, hu⟩) ?_
                  intro r' he; cases he; exact hns
                by_cases ha : c = '@'
                · subst ha
                  simp at h
                  cases h
                  exact this
                · rw [if_neg (by simp [hu, ha])] at h
                  cases h
                  exact this
          · rw [if_neg hc] at h
            cases h
  · intro h
    have mark : ∀ (a : Str) {n t : Str} {v : Nat}, ':' ∉ a ∧ '(' ∉ a → SizeText t v → (':' ∉ n ∧ '(' ∉ n) →
        ∀ b : Str, ':' ∉ b ∧ '(' ∉ b → ':' ∉ a ++ n ++ b ++ t ∧ '(' ∉ a ++ n ++ b ++ t := by
      intro a n t v ha ht hn b hb
      simp only [List.mem_append, not_or]
      exact ⟨⟨⟨⟨ha.1, hn.1⟩, hb.1⟩, ht.no_mark (by decide) (by decide)⟩,
        ⟨⟨⟨ha.2, hn.2⟩, hb.2⟩, ht.no_mark (by decide) (by decide)⟩⟩
    cases h with
    | cxx _ hm => unfold parseUnknown; rw [if_pos ((any_mark s).mpr hm)]; rfl
    | vectorcall _ t v ht hn =>
      rw [parseUnknown_unmarked (by simpa using mark [] (by simp) ht hn (str% "@@") (by decide))]
      unfold parseCDecorated
      rw [(sizedSplit_atat _ n v).mpr ⟨t, ht, rfl⟩]
    | stdcall _ t v ht hn hv =>
      rw [parseUnknown_unmarked (mark _ (by decide) ht hn _ (by decide))]
      unfold parseCDecorated
      rw [sizedSplit_atat_none hv]
      simp only [List.cons_append, List.nil_append, parseOther, splitAtOne, reduceCtorEq, if_false]
      rw [if_pos (by decide)]
      have := (sizedSplit_at (n ++ '@' :: t) n v).mpr ⟨t, ht, rfl⟩
      simp [this]
    | fastcall _ t v ht hn hv =>
      rw [parseUnknown_unmarked (mark _ (by decide) ht hn _ (by decide))]
      unfold parseCDecorated
      rw [sizedSplit_atat_none hv]
      simp only [List.cons_append, List.nil_append, parseOther, splitAtOne, reduceCtorEq, if_false]
      rw [if_pos (by decide)]
      have := (sizedSplit_at (n ++ '@' :: t) n v).mpr ⟨t, ht, rfl⟩
      simp [this]
    | cdecl _ hn hs =>
      have hv : ¬ Vectorcall ('_' :: n) := by
        rintro ⟨a, t, v, ht, he⟩
        cases a with
        | nil => simp at he
        | cons c a =>
          simp at he
          exact hs ⟨a ++ ['@'], t, v, ht, by rw [he.2]; simp⟩
      rw [parseUnknown_unmarked (by simpa using hn)]
      unfold parseCDecorated
      simp only [List.cons_append, List.nil_append]
      rw [sizedSplit_atat_none hv]
      simp only [parseOther, reduceCtorEq, if_false, splitAtOne]
      rw [if_pos (by decide)]
      simp [sizedSplit_at_none hs, nameOnly]
    | plain _ hn hv hc hs =>
      rw [parseUnknown_unmarked hn]
      unfold parseCDecorated
      rw [sizedSplit_atat_none hv]
      cases s with
      | nil => rfl
      | cons c r =>
        obtain ⟨h1, h2⟩ := hc c r rfl
        simp only [parseOther, reduceCtorEq, if_false, splitAtOne]
        rw [if_pos h1]
        simp only [Res.bind_ok]
        by_cases ha : c = '@'
        · subst ha
          simp [sizedSplit_at_none (hs r rfl), nameOnly]
        · rw [if_neg (by simp [ha, h2])]
          rfl

/-- A name has at most one undecorated form. -/
theorem Undecorated.unique {s n n' : Str} {z z' : Option Nat} (h : Undecorated s n z) (h' : Undecorated s n' z') :
    n = n' ∧ z = z' := by
  have h1 := (C41_decorated s n z).mpr h
  rw [(C41_decorated s n' z').mpr h'] at h1
  cases h1
  exact ⟨rfl, rfl⟩

/-- The text before the size does not end in `@`, so the form is not that of vectorcall. -/
theorem not_vectorcall {a : Str} {v : Nat} (ha : a.getLast? ≠ some '@') : ¬ Vectorcall (a ++ '@' :: dec v) := by
  rintro ⟨p, t, w, ht, he⟩
  have e : a ++ '@' :: dec v = (p ++ ['@']) ++ '@' :: t := by rw [he]; simp
  obtain ⟨rfl, _⟩ := split_at_unique (at_not_mem_dec v) ht.no_at e
  exact ha (by simp)

/-- **C41, the usual forms.** A C name that does not end in `@` is found in each of its decorated forms, with the size of its parameters. -/
theorem C41_forms (n : Str) (v : Nat) (hv : v < M32) (hn : ':' ∉ n ∧ '(' ∉ n) (hl : n.getLast? ≠ some '@') :
    parseUnknown (n ++ str% "@@" ++ dec v) = .ok { name := n, paramSize := some v } ∧
    parseUnknown (str% "_" ++ n ++ str% "@" ++ dec v) = .ok { name := n, paramSize := some v } ∧
    (n ≠ [] → parseUnknown (str% "@" ++ n ++ str% "@" ++ dec v) = .ok { name := n, paramSize := some v }) ∧
    (¬ Sized n → parseUnknown (str% "_" ++ n) = .ok { name := n, paramSize := none }) := by
  have tl : ∀ c : Char, c ≠ '@' ∨ n ≠ [] → (c :: n).getLast? ≠ some '@' := by
    intro c hc
    cases n with
    | nil => rcases hc with hc | hc
             · simpa using hc
             · exact absurd rfl hc
    | cons d n => simpa [List.getLast?_cons_cons] using hl
  refine ⟨(C41_decorated _ _ _).mpr (.vectorcall n _ v (sizeText_dec hv) hn),
    (C41_decorated _ _ _).mpr (.stdcall n _ v (sizeText_dec hv) hn ?_),
    fun hne => (C41_decorated _ _ _).mpr (.fastcall n _ v (sizeText_dec hv) hn ?_),
    fun hs => (C41_decorated _ _ _).mpr (.cdecl n hn hs)⟩
  · have := not_vectorcall (v := v) (tl '_' (.inl (by decide)))
    simpa using this
  · have := not_vectorcall (v := v) (tl '@' (.inr hne))
    simpa using this

/-- The condition on the end of the name is needed. -/
theorem C41_stdcall_trailing_at :
    parseUnknown (str% "_f@" ++ str% "@" ++ dec 8) = .ok { name := str% "_f", paramSize := some 8 } := by decide

example : parseUnknown (str% "_foo@bar@12") = .ok { name := str% "foo@bar", paramSize := some 12 } := by decide
example : parseUnknown (str% "@foo@4294967295") = .ok { name := str% "foo", paramSize := some 4294967295 } := by decide
example : parseUnknown (str% "_foo@4294967296") = .ok { name := str% "foo@4294967296", paramSize := none } := by decide
example : parseUnknown (str% "foo@@16") = .ok { name := str% "foo", paramSize := some 16 } := by decide
example : parseUnknown (str% "_foo@x") = .ok { name := str% "foo@x", paramSize := none } := by decide
example : parseUnknown (str% "_a::b@8") = .ok { name := str% "_a::b@8", paramSize := none } := by decide
example : Undecorated (str% "_foo@12") (str% "foo") (some 12) := (C41_decorated _ _ _).mp (by decide)
example : ¬ Undecorated (str% "_foo@12") (str% "foo@12") none := fun h => by
  have := h.unique ((C41_decorated (str% "_foo@12") (str% "foo") (some 12)).mp (by decide))
  revert this; decide

/-- The parser returns a name or panics. -/
theorem parseUnknown_total (s : Str) : (∃ w, parseUnknown s = .ok w) ∨ parseUnknown s = .panic := by
  unfold parseUnknown
  split
  · exact .inl ⟨_, rfl⟩
  · unfold parseCDecorated
    split
    · exact .inl ⟨_, rfl⟩
    · unfold parseOther
      split
      · exact .inl ⟨_, rfl⟩
      · unfold splitAtOne
        split
        · exact .inr rfl
        · split
          · simp only [Res.bind_ok]
            repeat' split
            all_goals exact .inl ⟨_, rfl⟩
          · exact .inr rfl

/-- **C42, exact.** Parsing a name panics exactly when it starts with a non-ASCII character, has no colon and no opening parenthesis and is
not in the form of vectorcall; otherwise it returns a name. -/
theorem C42_panics_iff (s : Str) :
    (parseUnknown s = .panic ↔ (∃ c r, s = c :: r ∧ 128 ≤ c.toNat) ∧ (':' ∉ s ∧ '(' ∉ s) ∧ ¬ Vectorcall s) ∧
    ((∃ w, parseUnknown s = .ok w) ∨ parseUnknown s = .panic) := by
  refine ⟨⟨?_, ?_⟩, parseUnknown_total s⟩
  · intro h
    have hno : ∀ n z, ¬ Undecorated s n z := by
      intro n z hu
      rw [(C41_decorated s n z).mpr hu] at h
      cases h
    have hm : ':' ∉ s ∧ '(' ∉ s := ⟨fun h => hno _ _ (.cxx s (.inl h)), fun h => hno _ _ (.cxx s (.inr h))⟩
    have hv : ¬ Vectorcall s := by
      rintro ⟨n, t, v, ht, rfl⟩
      simp only [List.mem_append, not_or] at hm
      exact hno _ _ (.vectorcall n t v ht ⟨hm.1.1.1, hm.2.1.1⟩)
    refine ⟨?_, hm, hv⟩
    cases s with
    | nil => exact absurd (.plain _ hm hv (fun c r he => by cases he) (fun r he => by cases he)) (hno [] none)
    | cons c r =>
      refine ⟨c, r, rfl, ?_⟩
      apply Classical.byContradiction
      intro hc
      rw [parseUnknown_unmarked hm] at h
      unfold parseCDecorated at h
      rw [sizedSplit_atat_none hv] at h
      simp only [parseOther, reduceCtorEq, if_false, splitAtOne, if_pos (show c.toNat < 128 by omega), Res.bind_ok] at h
      revert h
      repeat' split
      all_goals exact fun h => by cases h
  · rintro ⟨⟨c, r, rfl, hc⟩, hm, hv⟩
    rw [parseUnknown_unmarked hm]
    unfold parseCDecorated
    rw [sizedSplit_atat_none hv]
    simp only [parseOther, reduceCtorEq, if_false, splitAtOne, if_neg (show ¬ c.toNat < 128 by omega)]
    rfl

/-- **C42 is false**: a name starting with `é` crashes the parser. -/
theorem C42_multibyte_panic_witness : parseUnknown (str% "été") = .panic := by decide

/-- **C42, partial.** Missing: names whose first character is not ASCII, on which the claim fails. -/
theorem C42_parse_returns_partial (s : Str) (h : ∀ c, s.head? = some c → c.toNat < 128) :
    ∃ n size, parseUnknown s = .ok { name := n, paramSize := size } ∧ Undecorated s n size := by
  rcases parseUnknown_total s with ⟨w, hw⟩ | hp
  · exact ⟨w.name, w.paramSize, hw, (C41_decorated _ _ _).mp hw⟩
  · obtain ⟨⟨c, r, rfl, hc⟩, _⟩ := (C42_panics_iff s).1.mp hp
    have := h c rfl
    omega

example : ∃ n size, parseUnknown (str% "_naïve@4") = .ok { name := n, paramSize := size } ∧ Undecorated (str% "_naïve@4") n size :=
  C42_parse_returns_partial _ (by decide)

end DumpSyms
