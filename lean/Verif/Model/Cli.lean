import Verif.Model.Run
/-!
# Model of the command line (src/main.rs:21-138, 140-211 and src/common.rs:21-36)

The table of arguments is that of `cli()`.  `clap` (4.5.40, crates not in the repository) is modelled as far as this table uses it:
one positional argument with any number of values, which may be given between the others; options with one value; flags; `--help` and
`--version`, which `clap` adds.  Options are not abbreviated, an option or flag that is not `Append` may be given once, and a text
that starts with `-` (and is not just that) is never the value of the option before it.  Errors end the process with status 2, help
and version with status 0.  Simplifications: `clap` stores a value when the next argument is seen, here it is stored at once (nothing
but the same error can come between); the arguments are valid UTF-8; what help and errors print is left out.
-/
namespace DumpSyms
namespace Cli

/-- src/common.rs:21-36 `get_compile_time_arch`, of the `ARCH` of the build (names as in symbolic's `Arch::name`). -/
def compileTimeArch (arch : Str) : Str :=
  if arch = str% "x86" then str% "x86"
  else if arch = str% "x86_64" then str% "x86_64"
  else if arch = str% "arm" then str% "arm"
  else if arch = str% "aarch64" then str% "arm64"
  else if arch = str% "mips" then str% "mips"
  else if arch = str% "mips64" then str% "mips64"
  else if arch = str% "powerpc" then str% "ppc"
  else if arch = str% "powerpc64" then str% "ppc64"
  else str% "unknown"

/-- `clap::ArgAction`, as far as used. -/
inductive Act where
  | set | append | setTrue | help | version
deriving DecidableEq, Repr

/-- `clap::Arg`, as far as used.  (The action of an argument with one value is `Set` unless another one is given.) -/
structure Arg where
  id : Str
  short : Option Char := none
  long : Option Str := none
  default : Option Str := none
  act : Act := .set
deriving DecidableEq, Repr

/-- Whether a value must follow. -/
def Arg.takesValue (a : Arg) : Bool := a.act == .set || a.act == .append

/-- src/main.rs:27-31: the positional argument.  Its action is `Append`, as for every positional argument with any number of values. -/
def filenames : Str := str% "filenames"

/-- src/main.rs:33-137: the other arguments, and those `clap` adds. -/
def cli (arch : Str) : List Arg := [
  { id := str% "output", short := some 'o', long := some (str% "output") },
  { id := str% "store", short := some 's', long := some (str% "store") },
  { id := str% "debug_id", long := some (str% "debug-id") },
  { id := str% "code_id", long := some (str% "code-id") },
  { id := str% "symbol_server", long := some (str% "symbol-server") },
  { id := str% "check_cfi", long := some (str% "check-cfi"), act := .setTrue },
  { id := str% "verbose", long := some (str% "verbose"), default := some (str% "error") },
  { id := str% "arch", short := some 'a', long := some (str% "arch"), default := some arch },
  { id := str% "type", short := some 't', long := some (str% "type"), default := some [] },
  { id := str% "list_arch", long := some (str% "list-arch"), act := .setTrue },
  { id := str% "num_jobs", short := some 'j', default := some [] },
  { id := str% "mapping_var", long := some (str% "mapping-var"), act := .append },
  { id := str% "mapping_src", long := some (str% "mapping-src"), act := .append },
  { id := str% "mapping_dest", long := some (str% "mapping-dest"), act := .append },
  { id := str% "mapping_file", long := some (str% "mapping-file") },
  { id := str% "inlines", long := some (str% "inlines"), act := .setTrue },
  { id := str% "extra_info", long := some (str% "extra-info"), act := .append },
  { id := str% "no-generator", long := some (str% "no-generator"), act := .setTrue },
  { id := str% "help", short := some 'h', long := some (str% "help"), act := .help },
  { id := str% "version", short := some 'V', long := some (str% "version"), act := .version }]

/-- `clap::ArgMatches`: the values given, each with the id of its argument. -/
abbrev Matches := List (Str × Str)

/-- What parsing leads to: a result, or the end of the process. -/
inductive Outcome (α : Type) where
  | ok (a : α)
  | exit (code : Nat)
deriving DecidableEq, Repr

/-- The parser between two arguments: what has been given, the option that waits for its value, whether `--` has been seen. -/
structure State where
  given : Matches
  pending : Option Arg
  trailing : Bool
deriving DecidableEq, Repr

/-- `clap`'s `Parser::react`, for an argument with its value (flags have none), when no other one is waiting. -/
def react (m : Matches) (a : Arg) (v : Str) : Outcome Matches :=
  match a.act with
  | .set => if m.any (·.1 == a.id) then .exit 2 else .ok (m ++ [(a.id, v)])
  | .append => .ok (m ++ [(a.id, v)])
  | .setTrue => if m.any (·.1 == a.id) then .exit 2 else .ok (m ++ [(a.id, str% "true")])
  | .help => .exit 0
  | .version => .exit 0

/-- An argument with its value, when another one may be waiting (`Parser::resolve_pending`: it has no value, an error). -/
def give (s : State) (a : Arg) (v : Str) : Outcome State :=
  if s.pending.isSome then .exit 2
  else match react s.given a v with
    | .ok m => .ok { s with given := m }
    | .exit c => .exit c

/-- An option without its value. -/
def await (s : State) (a : Arg) : Outcome State := if s.pending.isSome then .exit 2 else .ok { s with pending := some a }

/-- A text split at the first `=`. -/
def splitValue : Str → Str × Option Str
  | [] => ([], none)
  | c :: cs => if c = '=' then ([], some cs) else let r := splitValue cs; (c :: r.1, r.2)

/-- `Parser::parse_long_arg`, of what follows `--`. -/
def longArg (args : List Arg) (s : State) (text : Str) : Outcome State :=
  let r := splitValue text
  match args.find? (·.long == some r.1) with
  | none => .exit 2
  | some a =>
    if a.takesValue then
      match r.2 with
      | some v => give s a v
      | none => await s a
    else
      match r.2 with
      | some _ => .exit 2
      | none => give s a []

/-- `Parser::parse_short_arg`, of what follows `-`. -/
def shortArg (args : List Arg) (s : State) : Str → Outcome State
  | [] => .ok s
  | c :: cs =>
    match args.find? (·.short == some c) with
    | none => .exit 2
    | some a =>
      if a.takesValue then
        match cs with
        | [] => await s a
        | '=' :: v => give s a v
        | v => give s a v
      else
        match give s a [] with
        | .ok s => shortArg args s cs
        | .exit code => .exit code

/-- A value of the positional argument. -/
def fileArg (s : State) (text : Str) : Outcome State :=
  if s.pending.isSome then .exit 2 else .ok { s with given := s.given ++ [(filenames, text)] }

/-- `Parser::get_matches_with`, one argument. -/
def parseArg (args : List Arg) (s : State) (text : Str) : Outcome State :=
  if s.trailing then fileArg s text
  else if text = str% "--" then .ok { s with trailing := true }
  else match text with
    | '-' :: '-' :: rest => longArg args s rest
    | '-' :: c :: rest => shortArg args s (c :: rest)
    | _ =>
      match s.pending with
      | some a => give { s with pending := none } a text
      | none => fileArg s text

/-- `Parser::get_matches_with`, all arguments. -/
def parseArgs (args : List Arg) : State → List Str → Outcome State
  | s, [] => .ok s
  | s, t :: ts =>
    match parseArg args s t with
    | .ok s => parseArgs args s ts
    | .exit code => .exit code

/-- src/main.rs:141 `cli().get_matches()`: the end of the arguments, and the required argument. -/
def getMatches (arch : Str) (argv : List Str) : Outcome Matches :=
  match parseArgs (cli arch) { given := [], pending := none, trailing := false } argv with
  | .ok s =>
    if s.pending.isSome then .exit 2
    else if s.given.any (·.1 == filenames) then .ok s.given
    else .exit 2
  | .exit code => .exit code

/-- `ArgMatches::get_many`: `None` for an argument that was not given. -/
def getMany (m : Matches) (id : Str) : Option (List Str) :=
  match m.filterMap (fun x => if x.1 = id then some x.2 else none) with
  | [] => none
  | vs => some vs

/-- `ArgMatches::get_one` of an argument without a default. -/
def getOne (m : Matches) (id : Str) : Option Str := (getMany m id).bind List.head?

/-- `ArgMatches::get_one` of an argument, with its default (`add_defaults`). -/
def getDefault (arch : Str) (m : Matches) (id : Str) : Str :=
  (getOne m id).getD (((cli arch).find? (·.id == id)).bind (·.default) |>.getD [])

/-- `ArgMatches::get_flag`. -/
def getFlag (m : Matches) (id : Str) : Bool := getOne m id == some (str% "true")

/-- src/main.rs:184-213, 252-276: the options looked up in the matches. -/
def optionsOf (arch : Str) (m : Matches) : Run.Options where
  filenames := (getMany m filenames).getD []
  output := getOne m (str% "output")
  store := getOne m (str% "store")
  debugId := getOne m (str% "debug_id")
  codeId := getOne m (str% "code_id")
  symbolServer := getOne m (str% "symbol_server")
  checkCfi := getFlag m (str% "check_cfi")
  arch := getDefault arch m (str% "arch")
  listArch := getFlag m (str% "list_arch")
  numJobs := getDefault arch m (str% "num_jobs")
  mappingVar := getMany m (str% "mapping_var")
  mappingSrc := getMany m (str% "mapping_src")
  mappingDest := getMany m (str% "mapping_dest")
  mappingFile := getOne m (str% "mapping_file")
  inlines := getFlag m (str% "inlines")
  extraInfo := getMany m (str% "extra_info")
  noGenerator := getFlag m (str% "no-generator")

/-- The options of a command line. -/
def parse (arch : Str) (argv : List Str) : Outcome Run.Options :=
  match getMatches arch argv with
  | .ok m => .ok (optionsOf arch m)
  | .exit code => .exit code

/-- src/main.rs:140-246 `main`, from the command line (without the name of the program): how the process can end, and what is
written then. -/
inductive Ends (env : Dumper.Env) (version arch : Str) (cpus : Nat) (argv : List Str) (w : Cache.World) (orders : Run.Orders) (out : Output.World) :
    Nat → Output.World → Prop where
  | stops (code : Nat) (h : parse arch argv = .exit code) : Ends env version arch cpus argv w orders out code out
  | runs (o : Run.Options) (code : Nat) (out' : Output.World) (h : parse arch argv = .ok o)
      (he : Run.Exits env version cpus o w orders out code out') : Ends env version arch cpus argv w orders out code out'

end Cli
end DumpSyms
