import Verif.Model.MappingFile
import Verif.Spec.Rules
/-!
# Which mapping files and configurations are accepted
-/
namespace DumpSyms
namespace Mapping

/-- The object has exactly one entry with this key, and its value is `v`. -/
def OneEntry (l : List (Str × Json)) (key : Str) (v : Json) : Prop := l.filter (fun p => p.1 = key) = [(key, v)]

/-- The value is an array of these strings. -/
def IsStrings (v : Json) (l : List Str) : Prop := v = .array (l.map .string)

/-- The value describes the mapping: an object with the three fields, or an array of them. -/
def IsEntry (v : Json) (e : Entry) : Prop :=
  (∃ l w, v = .object l ∧ OneEntry l (str% "source") (.string e.source) ∧ OneEntry l (str% "destination") (.string e.destination) ∧
    OneEntry l (str% "files") w ∧ IsStrings w e.files) ∨
  ∃ w, v = .array [.string e.source, .string e.destination, w] ∧ IsStrings w e.files

/-- The value is an object of strings, and these are the variables it gives: of several values the last counts. -/
def IsVars (v : Json) (vars : List (Str × Str)) : Prop :=
  ∃ l, v = .object l ∧ (∀ p ∈ l, ∃ s, p.2 = .string s) ∧
    ∀ k x, vars.lookup k = some x ↔ ∃ pre post, l = pre ++ (k, .string x) :: post ∧ ∀ p ∈ post, p.1 ≠ k

/-- The values describe the mappings, one by one. -/
inductive AreEntries : List Json → List Entry → Prop where
  | nil : AreEntries [] []
  | cons {v : Json} {e : Entry} {l : List Json} {es : List Entry} : IsEntry v e → AreEntries l es → AreEntries (v :: l) (e :: es)

/-- The value is an array of the descriptions of these mappings. -/
def IsEntries (v : Json) (es : List Entry) : Prop := ∃ l, v = .array l ∧ AreEntries l es

/-- The value describes the mapping file. -/
def IsFile (v : Json) (m : MappingsFile) : Prop :=
  (∃ l a b, v = .object l ∧ OneEntry l (str% "variables") a ∧ OneEntry l (str% "mappings") b ∧ IsVars a m.variables ∧ IsEntries b m.mappings) ∨
  ∃ a b, v = .array [a, b] ∧ IsVars a m.variables ∧ IsEntries b m.mappings

/-- The expression of the rule is one, and every action of its destination means something. -/
def Rule.Valid (env : MapEnv) (rule : Rule) : Prop := (∃ re, env.regex rule.source = some re) ∧ ∃ t tail, rule.Pieces t tail

/-- The configuration is in order: every variable has a value, sources and destinations are both given or both not given, and there are rules (so a
mapping file can be read, and there are as many sources as destinations), all of them valid. -/
def Accepted (env : MapEnv) (variables sources destinations : Option (List Str)) (file : Option Str) : Prop :=
  (∀ v ∈ variables.getD [], '=' ∈ v) ∧ (sources.isSome ↔ destinations.isSome) ∧
    ∃ rules, Configured env variables sources destinations file rules ∧ ∀ r ∈ rules, r.Valid env

end Mapping
end DumpSyms
