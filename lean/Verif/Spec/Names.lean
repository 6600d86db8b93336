import Verif.Model.Common
/-!
# Specification vocabulary for the names shown to users
-/
namespace DumpSyms

/-- The words compilers add to the names of parts and copies of a function. -/
def compilerWords : List Str :=
  [str% "cold", str% "constprop", str% "isra", str% "llvm", str% "localalias", str% "lto_priv", str% "part", str% "str"]

/-- One compiler-added suffix: `.keyword`, `.keyword.number` or `[clone ...]` with an optional space on either side. -/
inductive Suffix1 : Str → Prop
  | keyword (k : Str) : k ∈ compilerWords → Suffix1 ('.' :: k)
  | numbered (k ds : Str) : k ∈ compilerWords → ds ≠ [] → (∀ c ∈ ds, '0' ≤ c ∧ c ≤ '9') → Suffix1 ('.' :: k ++ '.' :: ds)
  | clone (pre body post : Str) : (pre = [] ∨ pre = [' ']) → (post = [] ∨ post = [' ']) → ']' ∉ body →
      Suffix1 (pre ++ (str% "[clone" ++ (body ++ ']' :: post)))

/-- One or more suffixes in a row. -/
inductive Suffixes : Str → Prop
  | one (p : Str) : Suffix1 p → Suffixes p
  | cons (p r : Str) : Suffix1 p → Suffixes r → Suffixes (p ++ r)

/-- `Renamed s t`: `t` is `s` with occurrences of the Windows spelling replaced by the Unix one, scanning from the left. -/
inductive Renamed : Str → Str → Prop
  | nil : Renamed [] []
  | hit (s t : Str) : Renamed s t → Renamed (str% "`anonymous namespace'" ++ s) (str% "(anonymous namespace)" ++ t)
  | char (c : Char) (s t : Str) : (¬ ∃ r, c :: s = str% "`anonymous namespace'" ++ r) → Renamed s t →
      Renamed (c :: s) (c :: t)

/-- `t` is `s` without its longest compiler-added end, and with anonymous namespaces in the Unix spelling. -/
def Cleaned (s t : Str) : Prop :=
  ∃ pre suf, s = pre ++ suf ∧ (suf = [] ∨ Suffixes suf) ∧
    (∀ pre' suf', s = pre' ++ suf' → Suffixes suf' → suf'.length ≤ suf.length) ∧ Renamed pre t

/-- The text shown for the name of a function: the cleaned name of a C function; for other languages what the demangler makes of the
cleaned name, or the cleaned name if it makes nothing of it. -/
def Shown (dm : Name → Option Str) (n : Name) (t : Str) : Prop :=
  ∃ c, Cleaned n.text c ∧ (n.lang = .c → t = c) ∧
    (n.lang ≠ .c → (∀ d, dm { n with text := c } = some d → t = d) ∧ (dm { n with text := c } = none → t = c))

/-- The text kept for the name of an inlined function: the one shown for a function, without ASCII control characters. -/
def OriginName (dm : Name → Option Str) (n : Name) (t : Str) : Prop :=
  ∃ s, Shown dm n s ∧ t = s.filter fun c => decide (¬ (c.toNat < 32 ∨ c.toNat = 127))

/-- The texts kept for a list of names, one for each. -/
def OriginNames (dm : Name → Option Str) (ns : List Name) (l : List Str) : Prop :=
  l.length = ns.length ∧ ∀ (i : Nat) n t, ns[i]? = some n → l[i]? = some t → OriginName dm n t

/-- The text shown for the name of a public symbol.  Its language is not known; if it cannot be detected the name is shown as it is,
otherwise it is shown like a mangled name of that language. -/
def PublicName (dm : Name → Option Str) (detect : Str → Language) (n t : Str) : Prop :=
  (detect n = .unknown → t = n) ∧
  (detect n ≠ .unknown → ∃ c, Cleaned n c ∧
    (∀ d, dm { text := c, mangled := true, lang := detect n } = some d → t = d) ∧
    (dm { text := c, mangled := true, lang := detect n } = none → t = c))

/-- A text without any visible character. -/
def Blank (s : Str) : Prop := ∀ c ∈ s, isWhitespace c = true

instance (s : Str) : Decidable (Blank s) := by unfold Blank; infer_instance

end DumpSyms
