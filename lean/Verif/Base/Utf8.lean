import Verif.Base.Res
/-!
# UTF-8

Bytes are natural numbers below 256.
-/
namespace DumpSyms
namespace Utf8

/-- The UTF-8 form of a character (RFC 3629). -/
def encodeChar (c : Char) : List Nat :=
  let n := c.toNat
  if n < 0x80 then [n]
  else if n < 0x800 then [0xC0 + n / 64, 0x80 + n % 64]
  else if n < 0x10000 then [0xE0 + n / 4096, 0x80 + n / 64 % 64, 0x80 + n % 64]
  else [0xF0 + n / 262144, 0x80 + n / 4096 % 64, 0x80 + n / 64 % 64, 0x80 + n % 64]

/-- The UTF-8 form of a text (`str::as_bytes`). -/
def encode (s : Str) : List Nat := s.flatMap encodeChar

/-- A continuation byte. -/
def cont (b : Nat) : Bool := decide (0x80 ≤ b ∧ b < 0xC0)

/-- The character with a code point (none: a surrogate or too large). -/
def charOf (n : Nat) : Option Char := if h : n.isValidChar then some (Char.ofNatAux n h) else none

/-- `std::str::from_utf8`. -/
def decode : List Nat → Option Str
  | [] => some []
  | b :: r =>
    if b < 0x80 then do
      let c ← charOf b
      let s ← decode r
      some (c :: s)
    else match r with
      | b1 :: r1 =>
        if 0xC0 ≤ b ∧ b < 0xE0 then
          let n := (b - 0xC0) * 64 + (b1 - 0x80)
          if cont b1 = true ∧ 0x80 ≤ n then do
            let c ← charOf n
            let s ← decode r1
            some (c :: s)
          else none
        else match r1 with
          | b2 :: r2 =>
            if 0xE0 ≤ b ∧ b < 0xF0 then
              let n := (b - 0xE0) * 4096 + (b1 - 0x80) * 64 + (b2 - 0x80)
              if cont b1 = true ∧ cont b2 = true ∧ 0x800 ≤ n then do
                let c ← charOf n
                let s ← decode r2
                some (c :: s)
              else none
            else match r2 with
              | b3 :: r3 =>
                if 0xF0 ≤ b ∧ b < 0xF8 then
                  let n := (b - 0xF0) * 262144 + (b1 - 0x80) * 4096 + (b2 - 0x80) * 64 + (b3 - 0x80)
                  if cont b1 = true ∧ cont b2 = true ∧ cont b3 = true ∧ 0x10000 ≤ n then do
                    let c ← charOf n
                    let s ← decode r3
                    some (c :: s)
                  else none
                else none
              | [] => none
          | [] => none
      | [] => none

theorem charOf_toNat (c : Char) : charOf c.toNat = some c := by
  unfold charOf
  have h : c.toNat.isValidChar := c.valid
  rw [dif_pos h]
  congr 1

theorem toNat_of_charOf {n : Nat} {c : Char} (h : charOf n = some c) : c.toNat = n := by
  unfold charOf at h
  split at h
  · cases h
    rename_i hv
    simp [Char.ofNatAux, Char.toNat]
  · cases h

theorem toNat_lt (c : Char) : c.toNat < 0x110000 := by
  have h : c.toNat.isValidChar := c.valid
  rcases h with h | ⟨_, h⟩ <;> omega

theorem decode_encodeChar (c : Char) (bs : List Nat) : decode (encodeChar c ++ bs) = (decode bs).map (c :: ·) := by
  have hlt := toNat_lt c
  have hb : ∀ s : Option Str, (s.bind fun s => some (c :: s)) = s.map (c :: ·) := by intro s; cases s <;> rfl
  unfold encodeChar
  simp only
  split
  · rename_i h
    simp only [List.cons_append, List.nil_append]
    rw [decode.eq_def]
    simp only [if_pos h, charOf_toNat, Option.bind_eq_bind, Option.bind_some, hb]
  · split
    · rename_i h1 h2
      have e : (0xC0 + c.toNat / 64 - 0xC0) * 64 + (0x80 + c.toNat % 64 - 0x80) = c.toNat := by omega
      simp only [List.cons_append, List.nil_append]
      rw [decode.eq_def]
      simp only
      rw [if_neg (by omega), if_pos (by omega), e]
      simp only [cont, charOf_toNat, Option.bind_eq_bind, Option.bind_some, hb]
      rw [if_pos ⟨by simp; omega, by omega⟩]
    · split
      · rename_i h1 h2 h3
        have e : (0xE0 + c.toNat / 4096 - 0xE0) * 4096 + (0x80 + c.toNat / 64 % 64 - 0x80) * 64 +
            (0x80 + c.toNat % 64 - 0x80) = c.toNat := by omega
        simp only [List.cons_append, List.nil_append]
        rw [decode.eq_def]
        simp only
        rw [if_neg (by omega), if_neg (by omega), if_pos (by omega), e]
        simp only [cont, charOf_toNat, Option.bind_eq_bind, Option.bind_some, hb]
        rw [if_pos ⟨by simp; omega, by simp; omega, by omega⟩]
      · rename_i h1 h2 h3
        have e : (0xF0 + c.toNat / 262144 - 0xF0) * 262144 + (0x80 + c.toNat / 4096 % 64 - 0x80) * 4096 +
            (0x80 + c.toNat / 64 % 64 - 0x80) * 64 + (0x80 + c.toNat % 64 - 0x80) = c.toNat := by omega
        simp only [List.cons_append, List.nil_append]
        rw [decode.eq_def]
        simp only
        rw [if_neg (by omega), if_neg (by omega), if_neg (by omega), if_pos (by omega), e]
        simp only [cont, charOf_toNat, Option.bind_eq_bind, Option.bind_some, hb]
        rw [if_pos ⟨by simp; omega, by simp; omega, by simp; omega, by omega⟩]

theorem encode_append (s t : Str) : encode (s ++ t) = encode s ++ encode t := by simp [encode]

theorem decode_encode (s : Str) : decode (encode s) = some s := by
  induction s with
  | nil => rfl
  | cons c s ih =>
    rw [encode, List.flatMap_cons, decode_encodeChar]
    change Option.map _ (decode (encode s)) = _
    rw [ih]; rfl

theorem encode_injective {s t : Str} (h : encode s = encode t) : s = t := by
  have := decode_encode s
  rw [h, decode_encode] at this
  exact (Option.some.inj this).symm

theorem encode_cons (c : Char) (s : Str) : encode (c :: s) = encodeChar c ++ encode s := rfl

theorem bind_bind_some {o : Option Char} {d : Option Str} {s : Str}
    (h : (o.bind fun c => d.bind fun t => some (c :: t)) = some s) :
    ∃ c t, o = some c ∧ d = some t ∧ s = c :: t := by
  cases o with
  | none => cases h
  | some c =>
    cases d with
    | none => cases h
    | some t => exact ⟨c, t, rfl, rfl, (Option.some.inj h).symm⟩

/-- What the decoder accepts is exactly what the encoder produces. -/
theorem encode_of_decode (bs : List Nat) : ∀ s, decode bs = some s → encode s = bs := by
  induction bs using decode.induct with
  | case1 => intro s h; cases h; rfl
  | case2 b r hb ih =>
    intro s h
    rw [decode.eq_def] at h
    simp only [if_pos hb, Option.bind_eq_bind] at h
    obtain ⟨c, t, hc, ht, rfl⟩ := bind_bind_some h
    rw [encode_cons, ih t ht]
    simp [encodeChar, toNat_of_charOf hc, hb]
  | case3 b hb b1 r1 hr n hn ih =>
    intro s h
    rw [decode.eq_def] at h
    simp only [if_neg hb, if_pos hr, Option.bind_eq_bind] at h
    rw [if_pos hn] at h
    obtain ⟨c, t, hc, ht, rfl⟩ := bind_bind_some h
    rw [encode_cons, ih t ht]
    have hc := toNat_of_charOf hc
    obtain ⟨h1, h2⟩ := hn
    simp only [cont, decide_eq_true_eq] at h1
    simp only [encodeChar, hc]
    rw [if_neg (by omega), if_pos (by omega)]
    simp only [List.cons_append, List.nil_append, List.cons.injEq, and_true]
    constructor <;> omega
  | case4 b hb b1 r1 hr n hn =>
    intro s h
    rw [decode.eq_def] at h
    simp only [if_neg hb, if_pos hr] at h
    rw [if_neg hn] at h
    cases h
  | case5 b hb b1 hr b2 r2 hr2 n hn ih =>
    intro s h
    rw [decode.eq_def] at h
    simp only [if_neg hb, if_neg hr, if_pos hr2, Option.bind_eq_bind] at h
    rw [if_pos hn] at h
    obtain ⟨c, t, hc, ht, rfl⟩ := bind_bind_some h
    rw [encode_cons, ih t ht]
    have hc := toNat_of_charOf hc
    obtain ⟨h1, h2, h3⟩ := hn
    simp only [cont, decide_eq_true_eq] at h1 h2
    simp only [encodeChar, hc]
    rw [if_neg (by omega), if_neg (by omega), if_pos (by omega)]
    simp only [List.cons_append, List.nil_append, List.cons.injEq, and_true]
    refine ⟨?_, ?_, ?_⟩ <;> omega
  | case6 b hb b1 hr b2 r2 hr2 n hn =>
    intro s h
    rw [decode.eq_def] at h
    simp only [if_neg hb, if_neg hr, if_pos hr2] at h
    rw [if_neg hn] at h
    cases h
  | case7 b hb b1 hr b2 hr2 b3 r3 hr3 n hn ih =>
    intro s h
    rw [decode.eq_def] at h
    simp only [if_neg hb, if_neg hr, if_neg hr2, if_pos hr3, Option.bind_eq_bind] at h
    rw [if_pos hn] at h
    obtain ⟨c, t, hc, ht, rfl⟩ := bind_bind_some h
    rw [encode_cons, ih t ht]
    have hc := toNat_of_charOf hc
    obtain ⟨h1, h2, h3, h4⟩ := hn
    simp only [cont, decide_eq_true_eq] at h1 h2 h3
    simp only [encodeChar, hc]
    rw [if_neg (by omega), if_neg (by omega), if_neg (by omega)]
    simp only [List.cons_append, List.nil_append, List.cons.injEq, and_true]
    refine ⟨?_, ?_, ?_, ?_⟩ <;> omega
  | case8 b hb b1 hr b2 hr2 b3 r3 hr3 n hn =>
    intro s h
    rw [decode.eq_def] at h
    simp only [if_neg hb, if_neg hr, if_neg hr2, if_pos hr3] at h
    rw [if_neg hn] at h
    cases h
  | case9 b hb b1 hr b2 hr2 b3 r3 hr3 =>
    intro s h
    rw [decode.eq_def] at h
    simp only [if_neg hb, if_neg hr, if_neg hr2, if_neg hr3] at h
    cases h
  | case10 b hb b1 hr b2 hr2 =>
    intro s h
    rw [decode.eq_def] at h
    simp only [if_neg hb, if_neg hr, if_neg hr2] at h
    cases h
  | case11 b hb b1 hr =>
    intro s h
    rw [decode.eq_def] at h
    simp only [if_neg hb, if_neg hr] at h
    cases h
  | case12 b hb =>
    intro s h
    rw [decode.eq_def] at h
    simp only [if_neg hb] at h
    cases h

/-- An ASCII character occurs in the bytes only where it occurs in the text. -/
theorem encodeChar_ascii {c d : Char} (hd : d.toNat < 0x80) (h : d.toNat ∈ encodeChar c) : c = d := by
  unfold encodeChar at h
  simp only at h
  split at h
  · simp at h
    have := charOf_toNat c
    rw [← h, charOf_toNat] at this
    exact (Option.some.inj this).symm
  · split at h
    · simp at h; omega
    · split at h <;> simp at h <;> omega

theorem encodeChar_of_ascii {d : Char} (hd : d.toNat < 0x80) : encodeChar d = [d.toNat] := by
  simp [encodeChar, hd]

end Utf8
end DumpSyms
