import Verif.Base.Res
/-!
# Printing numbers and handling strings

`dec`/`hex` model Rust's `{}` and `{:x}` for unsigned integers; the rest are the `str` methods the code uses.
-/
namespace DumpSyms

/-- `{}` for an unsigned integer. -/
def dec (n : Nat) : Str := Nat.toDigits 10 n

/-- `{:x}` for an unsigned integer (lower-case, no prefix, no padding). -/
def hex (n : Nat) : Str := Nat.toDigits 16 n

/-- `char::is_ascii_control`. -/
def isAsciiControl (c : Char) : Bool := c.toNat < 32 || c.toNat = 127

/-- `char::is_whitespace` (the Unicode `White_Space` property). -/
def isWhitespace (c : Char) : Bool :=
  let n := c.toNat
  (9 ≤ n && n ≤ 13) || n = 32 || n = 0x85 || n = 0xA0 || n = 0x1680 || (0x2000 ≤ n && n ≤ 0x200A) ||
    n = 0x2028 || n = 0x2029 || n = 0x202F || n = 0x205F || n = 0x3000

/-- `str::trim_start_matches` with a character predicate. -/
def trimStart (p : Char → Bool) (s : Str) : Str := s.dropWhile p

/-- `str::trim_end_matches` with a character predicate. -/
def trimEnd (p : Char → Bool) (s : Str) : Str := (s.reverse.dropWhile p).reverse

/-- `str::trim`. -/
def trim (s : Str) : Str := trimEnd isWhitespace (trimStart isWhitespace s)

/-- `str::split` on the characters satisfying `p`: always at least one piece. -/
def splitOn (p : Char → Bool) : Str → List Str
  | [] => [[]]
  | c :: cs =>
    if p c then [] :: splitOn p cs
    else match splitOn p cs with
      | [] => [[c]]
      | w :: ws => (c :: w) :: ws

/-- `char::to_ascii_lowercase`, used for `str::to_lowercase` on the ASCII keywords compared in the code
(simplification: non-ASCII letters are left alone.  The only non-ASCII characters whose Rust lower-case form contains an
ASCII letter are U+212A, giving `k`, and U+0130, giving `i`; neither letter occurs in `srv`, `pdb`, `pd_`, `ex_`, `dl_`,
the words the code compares with, so the comparisons agree). -/
def asciiLower (c : Char) : Char := if 'A' ≤ c ∧ c ≤ 'Z' then Char.ofNat (c.toNat + 32) else c

def toLower (s : Str) : Str := s.map asciiLower

end DumpSyms
