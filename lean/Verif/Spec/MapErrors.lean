import Verif.Spec.Rules
/-!
# What is wrong with the options for path mappings

Of the model only the descriptions of the surroundings are used.
-/
namespace DumpSyms
namespace Mapping

/-- A mapping is fine: its regular expression is valid and every action of its destination means something. -/
def PairFine (env : MapEnv) (vars : List (Str × Str)) (source dest : Str) : Prop :=
  ∃ re pairs tail, env.regex source = some re ∧ Cut dest pairs tail ∧ ∀ p ∈ pairs, ∃ k, Means vars p.2 k

/-- What is said about a mapping that is not: its regular expression is not valid, or the first action that means nothing is named. -/
inductive PairError (env : MapEnv) (vars : List (Str × Str)) (source dest : Str) : Str → Prop
  | regex : env.regex source = none → PairError env vars source dest (str% "regex")
  | action (re : Regex) (before : List (Str × Str)) (l bad : Str) (after : List (Str × Str)) (tail : Str) : env.regex source = some re →
      Cut dest (before ++ (l, bad) :: after) tail → (∀ p ∈ before, ∃ k, Means vars p.2 k) → (∀ k, ¬ Means vars bad k) →
      PairError env vars source dest (str% "Invalid action " ++ bad ++ str% " in mapping string")

/-- What is said about several mappings, if not all are fine: what is said about the first one that is not. -/
def FirstError (env : MapEnv) (vars : List (Str × Str)) (ps : List (Str × Str)) (m : Str) : Prop :=
  ∃ before s d after, ps = before ++ (s, d) :: after ∧ (∀ p ∈ before, PairFine env vars p.1 p.2) ∧ PairError env vars s d m

/-- The variables of the command line are well formed, and have the values `cli`. -/
def CliVars (variables : Option (List Str)) (cli : List (Str × Str)) : Prop :=
  (∀ v ∈ variables.getD [], '=' ∈ v) ∧ ∀ k x, cli.lookup k = some x ↔ LastVar (variables.getD []) k x

/-- The mapping file can be read and understood; its mappings and the variables they may use. -/
def FileHas (env : MapEnv) (cli : List (Str × Str)) (f : Str) (vars : List (Str × Str)) (ps : List (Str × Str)) : Prop :=
  ∃ data m, env.read f = .ok data ∧ env.json data = some m ∧ (∀ k, vars.lookup k = (cli.lookup k).or (m.variables.lookup k)) ∧
    ps = m.mappings.map fun e => (e.source, e.destination)

/-- The mapping file, if there is one, is fine. -/
def FileFine (env : MapEnv) (cli : List (Str × Str)) (file : Option Str) : Prop :=
  ∀ f, file = some f → ∃ vars ps, FileHas env cli f vars ps ∧ ∀ p ∈ ps, PairFine env vars p.1 p.2

/-- What is said about options that are wrong.  The variables are looked at first, then the mapping file, then the pairs of the command
line. -/
inductive OptionError (env : MapEnv) (variables sources destinations : Option (List Str)) (file : Option Str) : Str → Prop
  | badVar (before : List Str) (v : Str) (after : List Str) : variables.getD [] = before ++ v :: after → (∀ x ∈ before, '=' ∈ x) →
      '=' ∉ v → OptionError env variables sources destinations file (str% "Invalid pair " ++ v ++ str% ": must be var=value")
  | read (cli : List (Str × Str)) (f m : Str) : CliVars variables cli → file = some f → env.read f = .err m →
      OptionError env variables sources destinations file m
  | json (cli : List (Str × Str)) (f : Str) (data : List Nat) : CliVars variables cli → file = some f → env.read f = .ok data →
      env.json data = none → OptionError env variables sources destinations file (str% "json")
  | entry (cli vars : List (Str × Str)) (f : Str) (ps : List (Str × Str)) (m : Str) : CliVars variables cli → file = some f →
      FileHas env cli f vars ps → FirstError env vars ps m → OptionError env variables sources destinations file m
  | counts (cli : List (Str × Str)) : CliVars variables cli → FileFine env cli file →
      (sources.getD []).length ≠ (destinations.getD []).length →
      OptionError env variables sources destinations file (str% "mapping-src and mapping-dest must have the same number of elements")
  | pair (cli : List (Str × Str)) (m : Str) : CliVars variables cli → FileFine env cli file →
      (sources.getD []).length = (destinations.getD []).length → FirstError env cli ((sources.getD []).zip (destinations.getD [])) m →
      OptionError env variables sources destinations file m

/-- The options are fine. -/
def OptionsFine (env : MapEnv) (variables sources destinations : Option (List Str)) (file : Option Str) : Prop :=
  ∃ cli, CliVars variables cli ∧ FileFine env cli file ∧ (sources.getD []).length = (destinations.getD []).length ∧
    (sources = none ↔ destinations = none) ∧ ∀ p ∈ (sources.getD []).zip (destinations.getD []), PairFine env cli p.1 p.2

end Mapping
end DumpSyms
