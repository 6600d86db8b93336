import Verif.Base.Str
/-!
# What a symbol path says

`srv`, `srv*SERVER` and `srv*CACHE*SERVER`, separated by `;` or line ends; stated without the functions of the model.
-/
namespace DumpSyms
namespace Cache

/-- `Fields sep s fs`: `s` is the fields `fs` with one separating character between neighbours, and no field contains a
separating character. -/
inductive Fields (sep : Char → Prop) : Str → List Str → Prop where
  | last (a : Str) : (∀ c ∈ a, ¬ sep c) → Fields sep a [a]
  | more (a : Str) (c : Char) (s : Str) (fs : List Str) : (∀ c ∈ a, ¬ sep c) → sep c → Fields sep s fs →
      Fields sep (a ++ c :: s) (a :: fs)

/-- `t` is `s` without the blanks around it. -/
def Trimmed (s t : Str) : Prop :=
  ∃ l r, s = l ++ t ++ r ∧ (∀ c ∈ l, isWhitespace c = true) ∧ (∀ c ∈ r, isWhitespace c = true) ∧
    (∀ c, t.head? = some c → isWhitespace c = false) ∧ (∀ c, t.getLast? = some c → isWhitespace c = false)

/-- `srv` in any letter case. -/
def IsSrv (t : Str) : Prop := ∃ a b c, t = [a, b, c] ∧ (a = 's' ∨ a = 'S') ∧ (b = 'r' ∨ b = 'R') ∧ (c = 'v' ∨ c = 'V')

/-- A leading `~` stands for the home directory, if there is one. -/
inductive Expands (home : Option Str) : Str → Str → Prop where
  | home {h : Str} (r : Str) : home = some h → Expands home ('~' :: r) (h ++ r)
  | noHome (s : Str) : home = none → Expands home s s
  | plain (s : Str) : s.head? ≠ some '~' → Expands home s s

/-- An entry: the cache (if any) and the server. -/
inductive Entry (home : Option Str) : Str → Option Str → Str → Prop where
  | srv {e a a' : Str} : Fields (· = '*') e [a] → Trimmed a a' → IsSrv a' →
      Entry home e none (str% "https://msdl.microsoft.com/download/symbols")
  | server {e a a' b s : Str} : Fields (· = '*') e [a, b] → Trimmed a a' → IsSrv a' → Trimmed b s → Entry home e none s
  | cached {e a a' b b' c s p : Str} : Fields (· = '*') e [a, b, c] → Trimmed a a' → IsSrv a' → Trimmed b b' →
      Expands home b' p → Trimmed c s → Entry home e (some p) s

/-- The servers of a list of entries, in order; entries of another form are skipped. -/
inductive Entries (home : Option Str) : List Str → List (Option Str × Str) → Prop where
  | nil : Entries home [] []
  | keep {e : Str} {es : List Str} {c : Option Str} {s : Str} {vs : List (Option Str × Str)} :
      Entry home e c s → Entries home es vs → Entries home (e :: es) ((c, s) :: vs)
  | skip {e : Str} {es : List Str} {vs : List (Option Str × Str)} :
      (∀ c s, ¬ Entry home e c s) → Entries home es vs → Entries home (e :: es) vs

end Cache
end DumpSyms
