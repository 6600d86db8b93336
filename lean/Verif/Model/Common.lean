import Verif.Base.Str
/-!
# Model of src/common.rs

`get_compile_time_arch` is in Model/Cli.lean.  Not modelled: `demangle_options` (passed to the demangler, a parameter).
-/
namespace DumpSyms

/-- `symbolic::common::Language`; only `C` and `Unknown` are looked at by the code. -/
inductive Language where
  | unknown
  | c
  | other (n : Nat)
  deriving DecidableEq, Repr

/-- `symbolic::common::Name`: text, mangling state, language.  Equality is equality of the three. -/
structure Name where
  text : Str
  mangled : Bool
  lang : Language
  deriving DecidableEq, Repr

namespace Common

/-- The keywords of the regular expression at src/common.rs:46. -/
def keywords : List Str :=
  [str% "cold", str% "constprop", str% "llvm", str% "localalias", str% "lto_priv", str% "isra", str% "part", str% "str"]

/-- Remainder after a literal prefix. -/
def afterPrefix (pre s : Str) : Option Str := if pre.isPrefixOf s then some (s.drop pre.length) else none

/-- `[0-9]`. -/
def isDigit09 (c : Char) : Bool := decide ('0' ≤ c) && decide (c ≤ '9')

/-- Remainders after `[0-9]+`. -/
def digitRests : Str → List Str
  | [] => []
  | c :: cs => if isDigit09 c then cs :: digitRests cs else []

/-- Remainders after `(\.[0-9]+)?`. -/
def numRests (s : Str) : List Str :=
  s :: match s with
    | '.' :: r => digitRests r
    | _ => []

/-- Remainders after `\.(cold|constprop|...)(\.[0-9]+)?`. -/
def keywordRests : Str → List Str
  | '.' :: r => (keywords.filterMap fun k => afterPrefix k r).flatMap numRests
  | _ => []

/-- Remainders after ` ?`. -/
def spaceRests (s : Str) : List Str :=
  s :: match s with
    | ' ' :: r => [r]
    | _ => []

/-- Remainder after `[^\]]*\]`. -/
def afterBracket : Str → Option Str
  | [] => none
  | c :: cs => if c = ']' then some cs else afterBracket cs

/-- Remainders after ` ?\[clone[^\]]*\] ?`. -/
def cloneRests (s : Str) : List Str :=
  ((spaceRests s).filterMap (afterPrefix (str% "[clone"))).filterMap afterBracket |>.flatMap spaceRests

/-- Remainders after one alternative of the group. -/
def pieceRests (s : Str) : List Str := keywordRests s ++ cloneRests s

/-- Does the whole string match `(...)+` (with `fuel` at least its length)? -/
def matchesAll : Nat → Str → Bool
  | 0, _ => false
  | fuel + 1, s => (pieceRests s).any fun r => r.isEmpty || matchesAll fuel r

/-- src/common.rs:44-50 `COMPILER_NNN.replace(name, "")`: the leftmost match of `(...)+$` is removed. -/
def stripSuffix : Str → Str
  | [] => []
  | c :: cs => if matchesAll (cs.length + 1) (c :: cs) then [] else c :: stripSuffix cs

/-- src/common.rs:39, the searched text. -/
def anonPat : Str := str% "`anonymous namespace'"
/-- src/common.rs:39, the replacement. -/
def anonRep : Str := str% "(anonymous namespace)"

/-- `str::replace` (with `fuel` at least the length of the text). -/
def replaceAllN (pat rep : Str) : Nat → Str → Str
  | 0, s => s
  | _, [] => []
  | fuel + 1, c :: cs =>
    match afterPrefix pat (c :: cs) with
    | some r => rep ++ replaceAllN pat rep fuel r
    | none => c :: replaceAllN pat rep fuel cs

/-- src/common.rs:38-41 `normalize_anonymous_namespace`. -/
def normalizeAnonymousNamespace (s : Str) : Str := replaceAllN anonPat anonRep s.length s

/-- src/common.rs:43-54 `fix_symbol_name`. -/
def fixSymbolName (n : Name) : Name :=
  { n with text := normalizeAnonymousNamespace (stripSuffix n.text) }

end Common
end DumpSyms
