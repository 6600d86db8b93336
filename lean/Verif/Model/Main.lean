import Verif.Model.Mapping
import Verif.Model.Output
/-!
# Model of src/main.rs

The command line is in `Model/Cli`; here the options are given.  The level of the logger is in `Model/Log`; the panic hook is not modelled.
-/
namespace DumpSyms
namespace Main

/-- The class `[A-Z_]` of the regular expression at src/main.rs:253. -/
def isKeywordChar (c : Char) : Bool := (decide ('A' ≤ c) && decide (c ≤ 'Z')) || c == '_'

/-- What follows the first character of the keyword: `[A-Z_]* .*` (src/main.rs:253); the end of the text is free. -/
def afterKeyword : Str → Bool
  | [] => false
  | c :: cs => if isKeywordChar c then afterKeyword cs else c == ' '

/-- src/main.rs:253,258 `INFO_LINE_RE.is_match(line)`. -/
def infoLineMatches : Str → Bool
  | [] => false
  | c :: cs => isKeywordChar c && afterKeyword cs

/-- src/main.rs:257-266: the values of `--extra-info`; the first one that does not match panics. -/
def checkedInfos : List Str → Res (List Str)
  | [] => .ok []
  | v :: vs =>
    if infoLineMatches v then do
      let rest ← checkedInfos vs
      .ok (v :: rest)
    else .panic

/-- src/main.rs:252-277 `get_extra_info`: what `EXTRA_INFO` is set to. -/
def getExtraInfo (version : Str) (values : Option (List Str)) (noGenerator : Bool) : Res (List Str) := do
  let infos ← match values with
    | some vs => checkedInfos vs
    | none => .ok []
  .ok (if noGenerator then infos else infos ++ [str% "GENERATOR mozilla/dump_syms " ++ version])

/-- src/main.rs:203-211: the number of jobs. -/
def numJobs (cpus : Nat) (value : Str) : Nat := (Mapping.parseUsize value).getD cpus

end Main
end DumpSyms
