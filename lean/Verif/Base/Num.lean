import Verif.Base.Str
/-!
# Reading numbers back

A reader for the numbers printed by `dec` and `hex`, and the round-trip facts.
-/
namespace DumpSyms

/-- Value of a lower-case hexadecimal digit. -/
def digitVal (c : Char) : Option Nat :=
  if '0' ≤ c ∧ c ≤ '9' then some (c.toNat - 48)
  else if 'a' ≤ c ∧ c ≤ 'f' then some (c.toNat - 87)
  else none

/-- Value of a string of digits below `b`, continuing from `acc`. -/
def readDigits (b : Nat) : Nat → Str → Option Nat
  | acc, [] => some acc
  | acc, c :: cs => match digitVal c with
    | some d => if d < b then readDigits b (acc * b + d) cs else none
    | none => none

/-- Value of a non-empty string of digits below `b`. -/
def readNat (b : Nat) (s : Str) : Option Nat := if s = [] then none else readDigits b 0 s

theorem digitVal_digitChar {d : Nat} (h : d < 16) : digitVal d.digitChar = some d := by
  have : ∀ d : Fin 16, digitVal (Nat.digitChar d.val) = some d.val := by decide
  exact this ⟨d, h⟩

theorem readDigits_append (b : Nat) (acc : Nat) (s t : Str) :
    readDigits b acc (s ++ t) = (readDigits b acc s).bind fun v => readDigits b v t := by
  induction s generalizing acc with
  | nil => rfl
  | cons c s ih =>
    simp only [List.cons_append, readDigits]
    cases digitVal c with
    | none => rfl
    | some d =>
      by_cases h : d < b
      · simp [h, ih]
      · simp [h]

theorem readDigits_toDigits {b : Nat} (h1 : 1 < b) (h2 : b ≤ 16) (n : Nat) :
    readDigits b 0 (Nat.toDigits b n) = some n := by
  induction n using Nat.strongRecOn with
  | _ n ih =>
    rw [Nat.toDigits_eq_if h1]
    by_cases hn : n < b
    · rw [if_pos hn]
      simp [readDigits, digitVal_digitChar (show n < 16 by omega), hn]
    · rw [if_neg hn, readDigits_append, ih (n / b) (Nat.div_lt_self (by omega) h1)]
      have hm : n % b < b := Nat.mod_lt _ (by omega)
      simp only [Option.bind_some, readDigits, digitVal_digitChar (show n % b < 16 by omega), if_pos hm]
      have := Nat.div_add_mod n b
      rw [Nat.mul_comm] at this
      rw [this]

theorem readNat_dec (n : Nat) : readNat 10 (dec n) = some n := by
  unfold readNat dec
  rw [if_neg Nat.toDigits_ne_nil, readDigits_toDigits (by decide) (by decide)]

theorem readNat_hex (n : Nat) : readNat 16 (hex n) = some n := by
  unfold readNat hex
  rw [if_neg Nat.toDigits_ne_nil, readDigits_toDigits (by decide) (by decide)]

theorem mem_of_readDigits {b : Nat} {acc v : Nat} {s : Str} (h : readDigits b acc s = some v) :
    ∀ c ∈ s, ∃ d, digitVal c = some d := by
  induction s generalizing acc with
  | nil => simp
  | cons c s ih =>
    simp only [readDigits] at h
    cases hd : digitVal c with
    | none => rw [hd] at h; cases h
    | some d =>
      rw [hd] at h
      simp only at h
      split at h
      · intro c' hc'
        rcases List.mem_cons.mp hc' with rfl | hc'
        · exact ⟨d, hd⟩
        · exact ih h c' hc'
      · cases h

theorem digit_mem_dec {n : Nat} {c : Char} (h : c ∈ dec n) : ∃ d, digitVal c = some d :=
  mem_of_readDigits (readDigits_toDigits (b := 10) (by decide) (by decide) n) c h

theorem digit_mem_hex {n : Nat} {c : Char} (h : c ∈ hex n) : ∃ d, digitVal c = some d :=
  mem_of_readDigits (readDigits_toDigits (b := 16) (by decide) (by decide) n) c h

theorem not_mem_dec {n : Nat} {c : Char} (h : digitVal c = none) : c ∉ dec n := by
  intro hc; obtain ⟨d, hd⟩ := digit_mem_dec hc; rw [h] at hd; cases hd

theorem not_mem_hex {n : Nat} {c : Char} (h : digitVal c = none) : c ∉ hex n := by
  intro hc; obtain ⟨d, hd⟩ := digit_mem_hex hc; rw [h] at hd; cases hd

theorem dec_ne_nil (n : Nat) : dec n ≠ [] := Nat.toDigits_ne_nil
theorem hex_ne_nil (n : Nat) : hex n ≠ [] := Nat.toDigits_ne_nil

end DumpSyms
