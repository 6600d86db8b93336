import Verif.Spec.Mapping
/-!
# What the configured path mappings do to a path
-/
namespace DumpSyms
namespace Mapping

/-- A configured mapping: its regular expression and destination, the paths it is for (all paths if empty), and the variables its
destination may use. -/
structure Rule where
  source : Str
  dest : Str
  files : List Str
  vars : List (Str × Str)

/-- The path as the rules see it: on Windows without a leading `\\?\`. -/
def Seen (env : MapEnv) (p q : Str) : Prop :=
  (env.windows = true → p = str% "\\\\?\\" ++ q ∨ (¬ str% "\\\\?\\" <+: p ∧ q = p)) ∧ (env.windows = false → q = p)

/-- The rule is for the path and its expression matches it. -/
def Rule.Matches (env : MapEnv) (rule : Rule) (p : Str) (caps : Captures) : Prop :=
  ∃ q re, Seen env p q ∧ (rule.files = [] ∨ q ∈ rule.files) ∧ env.regex rule.source = some re ∧ re q = some caps

/-- The destination is made of these literals, each followed by an action with its meaning, and a last literal. -/
def Rule.Pieces (rule : Rule) (t : List (Str × Str × ActionKind)) (tail : Str) : Prop :=
  Cut rule.dest (t.map fun p => (p.1, p.2.1)) tail ∧ ∀ p ∈ t, Means rule.vars p.2.1 p.2.2

/-- The rule maps the path to `r`: the destination with every action replaced by its value. -/
def Rule.Gives (env : MapEnv) (rule : Rule) (p r : Str) : Prop :=
  ∃ caps tail, ∃ t : List (Str × Str × ActionKind × Str), rule.Matches env p caps ∧
    rule.Pieces (t.map fun x => (x.1, x.2.1, x.2.2.1)) tail ∧ (∀ x ∈ t, Value env caps p x.2.2.1 x.2.2.2) ∧
    r = (t.flatMap fun x => x.1 ++ x.2.2.2) ++ tail

/-- The rule matches, and `k` is an action of the destination such that those before it have values. -/
def Rule.Reaches (env : MapEnv) (rule : Rule) (p : Str) (caps : Captures) (k : ActionKind) : Prop :=
  ∃ l act tail rest, ∃ t : List (Str × Str × ActionKind × Str), rule.Matches env p caps ∧
    rule.Pieces ((t.map fun x => (x.1, x.2.1, x.2.2.1)) ++ (l, act, k) :: rest) tail ∧
    ∀ x ∈ t, Value env caps p x.2.2.1 x.2.2.2

/-- The rule does not apply: it is not for the path, its expression does not match, or a group it needs took no part. -/
def Rule.Declines (env : MapEnv) (rule : Rule) (p : Str) : Prop :=
  (∀ caps, ¬ rule.Matches env p caps) ∨ ∃ caps n, rule.Reaches env p caps (.group n) ∧ caps n = none

/-- The rule needs the digest of the file, and reading the file ends with `e`. -/
def Rule.DigestFails (env : MapEnv) (rule : Rule) (p : Str) (e : Res (List Nat)) : Prop :=
  ∃ caps u, rule.Reaches env p caps (.digest u) ∧ env.read p = e

/-- The rules of a configuration, in order: those of the mapping file that list files, those of it that list none, and the pairs of
the command line.  Variables of the command line go before those of the mapping file; of several values the last counts. -/
def Configured (env : MapEnv) (variables sources destinations : Option (List Str)) (file : Option Str) (rules : List Rule) : Prop :=
  ∃ cli a b, (∀ k x, cli.lookup k = some x ↔ LastVar (variables.getD []) k x) ∧
    rules = a ++ b ++ ((sources.getD []).zip (destinations.getD [])).map (fun p => ⟨p.1, p.2, [], cli⟩) ∧
    (sources.getD []).length = (destinations.getD []).length ∧
    (file = none → a = [] ∧ b = []) ∧
    ∀ f, file = some f → ∃ data m vars, env.read f = .ok data ∧ env.json data = some m ∧
      (∀ k, vars.lookup k = (cli.lookup k).or (m.variables.lookup k)) ∧
      a = (m.mappings.filter fun e => e.files ≠ []).map (fun e => ⟨e.source, e.destination, e.files, vars⟩) ∧
      b = (m.mappings.filter fun e => e.files = []).map (fun e => ⟨e.source, e.destination, [], vars⟩)

/-- What becomes of a path: the answer of the first rule that applies.  If that rule fails, or no rule applies, the path stays as it
is. -/
def MapsTo (env : MapEnv) (rules : List Rule) (p r : Str) : Prop :=
  (∃ pre rule post, rules = pre ++ rule :: post ∧ (∀ x ∈ pre, x.Declines env p) ∧
    (rule.Gives env p r ∨ ((∃ m, rule.DigestFails env p (.err m)) ∧ r = p))) ∨
  ((∀ x ∈ rules, x.Declines env p) ∧ r = p)

/-- The first rule that applies needs the digest of a file that exists and cannot be read. -/
def Unreadable (env : MapEnv) (rules : List Rule) (p : Str) : Prop :=
  ∃ pre rule post, rules = pre ++ rule :: post ∧ (∀ x ∈ pre, x.Declines env p) ∧ rule.DigestFails env p .panic

end Mapping

/-- The function, or a function inlined into it at any depth, refers to the file in a line entry. -/
inductive Func.Refers : Func → ByteSlice → FileInfo → Prop where
  | here (f : Func) (l : LineInfo) (h : l ∈ f.lines) : Func.Refers f f.comp l.file
  | inlined (f g : Func) (c : ByteSlice) (i : FileInfo) (hg : g ∈ f.inlinees) (h : Func.Refers g c i) : Func.Refers f c i

end DumpSyms
