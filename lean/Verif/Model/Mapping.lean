import Verif.Base.Utf8
import Verif.Base.Num
import Verif.Model.ObjectInfo
/-!
# Model of src/mapping.rs

The regular expression engine, SHA-512, the JSON reader and the file system are parameters (`MapEnv`).  Bytes are natural
numbers below 256 and the scanner works on bytes, as the Rust code does.  Simplification: paths are Unicode strings (the
non-UTF-8 path of lines 299-305 answers `Ok(None)` and does nothing else).
-/
namespace DumpSyms
namespace Mapping

/-- `regex::Captures::get` of one match: the text of each group that took part (`none`: it did not, or there is no such
group). -/
abbrev Captures := Nat → Option Str

/-- A compiled `regex::Regex`, seen through `captures`. -/
abbrev Regex := Str → Option Captures

/-- src/mapping.rs:17-22 `struct Mapping` (an entry of the mapping file). -/
structure Entry where
  source : Str
  destination : Str
  files : List Str

/-- src/mapping.rs:24-28 `struct Mappings` (the mapping file).  The hash map is an association list. -/
structure MappingsFile where
  variables : List (Str × Str)
  mappings : List Entry

/-- The surroundings: `regex` is `Regex::new` (`none`: invalid), `read` is `utils::read` (src/utils.rs:205-223: an error
when there is no such file, a panic when it cannot be opened or read), `json` is `serde_json::from_slice` (`none`:
invalid), `sha512` is `Sha512::digest`, `windows` is `cfg!(windows)`, and `order` gives the iteration order of a hash
map. -/
structure MapEnv where
  regex : Str → Option Regex
  read : Str → Res (List Nat)
  json : List Nat → Option MappingsFile
  sha512 : List Nat → List Nat
  windows : Bool
  order : List (Str × Str) → List (Str × Str)

/-- `{:x}` / `{:X}` of a digest: two digits for each byte. -/
def hexBytes (uppercase : Bool) (bs : List Nat) : Str :=
  bs.flatMap fun b =>
    let d := fun n => if uppercase then (Nat.digitChar n).toUpper else Nat.digitChar n
    [d (b / 16 % 16), d (b % 16)]

/-- src/mapping.rs:40-48 `get_digest`. -/
def getDigest (env : MapEnv) (file : Str) (uppercase : Bool) : Res Str := do
  let data ← env.read file
  .ok (hexBytes uppercase (env.sha512 data))

/-- src/mapping.rs:50-56 `enum ActionKind`. -/
inductive ActionKind where
  | group (n : Nat)
  | mappingVar (v : Str)
  | digest (uppercase : Bool)
  | none
  deriving DecidableEq, Repr

/-- src/mapping.rs:58-63 `struct Action`. -/
structure Action where
  kind : ActionKind
  start : Nat
  stop : Nat
  deriving DecidableEq, Repr

/-- src/mapping.rs:65-71 `struct PathMappingGenerator`. -/
structure Generator where
  re : Regex
  actions : List Action
  mapping : List Nat
  files : List Str

/-- `&v[a..b]`: panics when out of range. -/
def slice (v : List Nat) (a b : Nat) : Res (List Nat) :=
  if a ≤ b ∧ b ≤ v.length then .ok ((v.drop a).take (b - a)) else .panic

/-- `str::parse::<usize>`: an optional `+`, then decimal digits, below 2^64. -/
def parseUsize (s : Str) : Option Nat :=
  let ds := match s with
    | '+' :: r => r
    | _ => s
  match readNat 10 ds with
  | some n => if n < 18446744073709551616 then some n else none
  | none => none

/-- src/mapping.rs:106-116: the meaning of an action. -/
def actionKind (vars : List (Str × Str)) (action : Str) : Res ActionKind :=
  if action = str% "DIGEST" then .ok (.digest true)
  else if action = str% "digest" then .ok (.digest false)
  else match vars.lookup action with
    | some v => .ok (.mappingVar v)
    | none => match parseUsize action with
      | some n => .ok (.group n)
      | none => .err (str% "Invalid action " ++ action ++ str% " in mapping string")

/-- The mutable variables of the scanner (src/mapping.rs:91-94). -/
structure Scan where
  chunkStart : Nat
  chunkEnd : Nat
  opened : Bool
  actions : List Action

/-- src/mapping.rs:97-124: one turn of the loop, at index `i` with byte `c`. -/
def scanStep (vars : List (Str × Str)) (mapping : List Nat) (i : Nat) (c : Nat) (s : Scan) : Res Scan :=
  if c = '{'.toNat then .ok { s with chunkEnd := i, opened := true }
  else if c = '}'.toNat then
    if !s.opened then .ok s
    else do
      let action ← slice mapping (s.chunkEnd + 1) i
      match Utf8.decode action with
      | none => .panic
      | some action =>
        let kind ← actionKind vars action
        .ok { chunkStart := i + 1, chunkEnd := s.chunkEnd, opened := false,
              actions := s.actions ++ [{ kind := kind, start := s.chunkStart, stop := s.chunkEnd }] }
  else .ok s

/-- src/mapping.rs:96-125: the loop; `i` is the index of the first remaining byte. -/
def scan (vars : List (Str × Str)) (mapping : List Nat) : Nat → List Nat → Scan → Res Scan
  | _, [], s => .ok s
  | i, c :: cs, s => do
    let s ← scanStep vars mapping i c s
    scan vars mapping (i + 1) cs s

/-- src/mapping.rs:82-141 `PathMappingGenerator::new`. -/
def Generator.new (env : MapEnv) (re mapping : Str) (vars : List (Str × Str)) (files : List Str) : Res Generator :=
  match env.regex re with
  | none => .err (str% "regex")
  | some re => do
    let mapping := Utf8.encode mapping
    let s ← scan vars mapping 0 mapping { chunkStart := 0, chunkEnd := 0, opened := false, actions := [] }
    let actions := if s.chunkStart < mapping.length then
        s.actions ++ [{ kind := .none, start := s.chunkStart, stop := mapping.length }]
      else s.actions
    .ok { re := re, actions := actions, mapping := mapping, files := files }

/-- What an action adds to the buffer (src/mapping.rs:149-171); `none` is the early `return Ok(None)`. -/
def actionText (env : MapEnv) (caps : Captures) (file : Str) : ActionKind → Res (Option (List Nat))
  | .group n =>
    match caps n with
    | some g =>
      .ok (some (Utf8.encode (if env.windows then g.map fun c => if c = '\\' then '/' else c else g)))
    | none => .ok none
  | .mappingVar v => .ok (some (Utf8.encode v))
  | .digest uppercase => do
    let d ← getDigest env file uppercase
    .ok (some (Utf8.encode d))
  | .none => .ok (some [])

/-- src/mapping.rs:147-172: the loop over the actions. -/
def applyActions (env : MapEnv) (mapping : List Nat) (caps : Captures) (file : Str) :
    List Action → List Nat → Res (Option (List Nat))
  | [], buf => .ok (some buf)
  | a :: as, buf => do
    let chunk ← slice mapping a.start a.stop
    match ← actionText env caps file a.kind with
    | some t => applyActions env mapping caps file as (buf ++ chunk ++ t)
    | none => .ok none

/-- src/mapping.rs:143-177 `PathMappingGenerator::apply`.  `String::from_utf8_unchecked` on bytes that are not UTF-8 is
undefined behaviour, given as a panic here. -/
def Generator.apply (env : MapEnv) (g : Generator) (file fileStr : Str) : Res (Option Str) :=
  if g.files = [] ∨ fileStr ∈ g.files then
    match g.re fileStr with
    | none => .ok none
    | some caps => do
      match ← applyActions env g.mapping caps file g.actions [] with
      | none => .ok none
      | some buf => match Utf8.decode buf with
        | some s => .ok (some s)
        | none => .panic
  else .ok none

/-- `HashMap::insert`. -/
def insertVar (m : List (Str × Str)) (k v : Str) : List (Str × Str) := (k, v) :: m.filter (·.1 != k)

/-- `var.splitn(2, '=')`: the text before and after the first `=` (`none`: there is no `=`). -/
def splitEq : Str → Option (Str × Str)
  | [] => none
  | c :: cs => if c = '=' then some ([], cs) else (splitEq cs).map fun (a, b) => (c :: a, b)

/-- src/mapping.rs:212-216: the loop of `get_variables`. -/
def variablesLoop : List Str → List (Str × Str) → Res (List (Str × Str))
  | [], m => .ok m
  | v :: vs, m =>
    match splitEq v with
    | some (k, x) => variablesLoop vs (insertVar m k x)
    | none => .err (str% "Invalid pair " ++ v ++ str% ": must be var=value")

/-- src/mapping.rs:209-219 `PathMappings::get_variables`. -/
def getVariables (vars : Option (List Str)) : Res (List (Str × Str)) :=
  match vars with
  | some vars => variablesLoop vars []
  | none => .ok []

/-- src/mapping.rs:239-246: the loop of `get_mappings` (`zip` stops at the shorter list). -/
def pairsLoop (env : MapEnv) (vars : List (Str × Str)) : List Str → List Str → List Generator → Res (List Generator)
  | s :: ss, d :: ds, out => do
    let g ← Generator.new env s d vars []
    pairsLoop env vars ss ds (out ++ [g])
  | _, _, out => .ok out

/-- src/mapping.rs:221-249 `PathMappings::get_mappings`. -/
def getMappings (env : MapEnv) (vars : List (Str × Str)) (sources destinations : Option (List Str))
    (out : List Generator) : Res (List Generator) :=
  if sources.isNone && destinations.isNone then .ok out
  else if (sources.map List.length).getD 0 ≠ (destinations.map List.length).getD 0 then
    .err (str% "mapping-src and mapping-dest must have the same number of elements")
  else match sources, destinations with
    | some ss, some ds => pairsLoop env vars ss ds out
    | _, _ => .panic

/-- src/mapping.rs:30-38 `Mappings::new`. -/
def MappingsFile.new (env : MapEnv) (path : Str) : Res MappingsFile := do
  let data ← env.read path
  match env.json data with
  | none => .err (str% "json")
  | some m => .ok m

/-- src/mapping.rs:264-285: the loop over the entries of the mapping file. -/
def entriesLoop (env : MapEnv) (vars : List (Str × Str)) :
    List Entry → List Generator → List Generator → Res (List Generator × List Generator)
  | [], out, noFiles => .ok (out, noFiles)
  | e :: es, out, noFiles => do
    let g ← Generator.new env e.source e.destination vars e.files
    if e.files = [] then entriesLoop env vars es out (noFiles ++ [g])
    else entriesLoop env vars es (out ++ [g]) noFiles

/-- src/mapping.rs:251-293 `PathMappings::get_mappings_from_file`. -/
def getMappingsFromFile (env : MapEnv) (vars : List (Str × Str)) (file : Option Str) (out : List Generator) :
    Res (List Generator) :=
  match file with
  | none => .ok out
  | some file => do
    let m ← MappingsFile.new env file
    let vars := (env.order vars).foldl (fun acc p => insertVar acc p.1 p.2) m.variables
    let (out, noFiles) ← entriesLoop env vars m.mappings out []
    .ok (out ++ noFiles)

/-- src/mapping.rs:187-207 `PathMappings::new`: the generators (the cache starts empty). -/
def new (env : MapEnv) (variables sources destinations : Option (List Str)) (file : Option Str) :
    Res (Option (List Generator)) := do
  let vars ← getVariables variables
  let m ← getMappingsFromFile env vars file []
  let m ← getMappings env vars sources destinations m
  .ok (if m.isEmpty then none else some m)

/-- src/mapping.rs:318-325: the first generator that answers. -/
def firstAnswer (env : MapEnv) (file fileStr : Str) : List Generator → Res (Option Str)
  | [] => .ok none
  | g :: gs => do
    match ← g.apply env file fileStr with
    | some r => .ok (some r)
    | none => firstAnswer env file fileStr gs

/-- src/mapping.rs:308-309 (Windows only): `strip_prefix(r"\\?\")`. -/
def fileStrOf (env : MapEnv) (file : Str) : Str :=
  if env.windows then
    match file with
    | '\\' :: '\\' :: '?' :: '\\' :: r => r
    | _ => file
  else file

/-- src/mapping.rs:295-336 `PathMappings::map`, when no other call runs in between; the second result is the cache
afterwards.  See `MapStep` for concurrent calls. -/
def map (env : MapEnv) (gens : List Generator) (cache : List (Str × Str)) (file : Str) :
    Res (Option Str × List (Str × Str)) :=
  let fileStr := fileStrOf env file
  match cache.lookup fileStr with
  | some r => .ok (some r, cache)
  | none => do
    match ← firstAnswer env file fileStr gens with
    | some r => .ok (some r, insertVar cache fileStr r)
    | none => .ok (none, cache)

/-- What the threads sharing a `PathMappings` do: the cache, and the calls that missed the cache and have not returned
(src/mapping.rs:311-331). -/
structure Shared where
  cache : List (Str × Str)
  inFlight : List Str

/-- The steps of concurrent `map` calls (src/mapping.rs:295-336).  The lock makes the lookup (lines 311-316) and the
insertion (lines 327-329) atomic; the search in between runs unlocked.  A step that returns carries the path and the
answer. -/
inductive MapStep (env : MapEnv) (gens : List Generator) : Shared → Option (Str × Res (Option Str)) → Shared → Prop where
  | hit (s : Shared) (file r : Str) (h : s.cache.lookup (fileStrOf env file) = some r) :
      MapStep env gens s (some (file, .ok (some r))) s
  | miss (s : Shared) (file : Str) (h : s.cache.lookup (fileStrOf env file) = none) :
      MapStep env gens s none { s with inFlight := file :: s.inFlight }
  | found (s : Shared) (pre post : List Str) (file r : Str) (hf : s.inFlight = pre ++ file :: post)
      (h : firstAnswer env file (fileStrOf env file) gens = .ok (some r)) :
      MapStep env gens s (some (file, .ok (some r)))
        { cache := insertVar s.cache (fileStrOf env file) r, inFlight := pre ++ post }
  | other (s : Shared) (pre post : List Str) (file : Str) (r : Res (Option Str)) (hf : s.inFlight = pre ++ file :: post)
      (h : firstAnswer env file (fileStrOf env file) gens = r) (hr : ∀ t, r ≠ .ok (some t)) :
      MapStep env gens s (some (file, r)) { s with inFlight := pre ++ post }

/-- Any number of steps, with the answers given on the way. -/
inductive MapSteps (env : MapEnv) (gens : List Generator) : Shared → List (Str × Res (Option Str)) → Shared → Prop where
  | refl (s : Shared) : MapSteps env gens s [] s
  | tail {s t u : Shared} {as : List (Str × Res (Option Str))} {a : Option (Str × Res (Option Str))}
      (h : MapSteps env gens s as t) (h' : MapStep env gens t a u) : MapSteps env gens s (as ++ a.toList) u

end Mapping
end DumpSyms
