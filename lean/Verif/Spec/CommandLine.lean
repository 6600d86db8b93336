import Verif.Model.Run
/-!
# What a command line means

A command line is a list of files, options and flags, each written in one of the ways allowed for it.  Of the model only the record
of the options is used.
-/
namespace DumpSyms
namespace CommandLine

/-- The options that take a value. -/
inductive Opt where
  | output | store | debugId | codeId | symbolServer | verbose | arch | type | jobs | mappingVar | mappingSrc | mappingDest | mappingFile | extraInfo
deriving DecidableEq

/-- The options that take none. -/
inductive Flag where
  | checkCfi | listArch | inlines | noGenerator
deriving DecidableEq

/-- The long name of an option. -/
def Opt.long : Opt → Option Str
  | output => str% "output"
  | store => str% "store"
  | debugId => str% "debug-id"
  | codeId => str% "code-id"
  | symbolServer => str% "symbol-server"
  | verbose => str% "verbose"
  | arch => str% "arch"
  | type => str% "type"
  | jobs => none
  | mappingVar => str% "mapping-var"
  | mappingSrc => str% "mapping-src"
  | mappingDest => str% "mapping-dest"
  | mappingFile => str% "mapping-file"
  | extraInfo => str% "extra-info"

/-- The letter of an option. -/
def Opt.short : Opt → Option Char
  | output => 'o'
  | store => 's'
  | arch => 'a'
  | type => 't'
  | jobs => 'j'
  | _ => none

/-- The options that may be given several times. -/
def Opt.Repeats (o : Opt) : Prop := o = mappingVar ∨ o = mappingSrc ∨ o = mappingDest ∨ o = extraInfo

/-- The name of a flag. -/
def Flag.long : Flag → Str
  | checkCfi => str% "check-cfi"
  | listArch => str% "list-arch"
  | inlines => str% "inlines"
  | noGenerator => str% "no-generator"

/-- What can be given. -/
inductive Item where
  | file (name : Str)
  | opt (o : Opt) (value : Str)
  | flag (f : Flag)
deriving DecidableEq

/-- A text that is not taken for an option: it does not start with a dash, or is just one. -/
def Plain (s : Str) : Prop := ∀ c r, s ≠ '-' :: c :: r

/-- The ways to write something. -/
inductive Spells : Item → List Str → Prop
  | file (f : Str) : Plain f → Spells (.file f) [f]
  | long (o : Opt) (n v : Str) : o.long = some n → Plain v → Spells (.opt o v) ['-' :: '-' :: n, v]
  | longEq (o : Opt) (n v : Str) : o.long = some n → Spells (.opt o v) ['-' :: '-' :: (n ++ '=' :: v)]
  | short (o : Opt) (c : Char) (v : Str) : o.short = some c → Plain v → Spells (.opt o v) [['-', c], v]
  | shortEq (o : Opt) (c : Char) (v : Str) : o.short = some c → Spells (.opt o v) ['-' :: c :: '=' :: v]
  | shortJoined (o : Opt) (c d : Char) (v : Str) : o.short = some c → d ≠ '=' → Spells (.opt o (d :: v)) ['-' :: c :: d :: v]
  | flag (f : Flag) : Spells (.flag f) ['-' :: '-' :: f.long]

/-- The texts of a command line up to a `--`. -/
inductive Writes : List Item → List Str → Prop
  | nil : Writes [] []
  | cons (i : Item) (ts : List Str) (is : List Item) (rest : List Str) : Spells i ts → Writes is rest → Writes (i :: is) (ts ++ rest)

/-- A command line: what follows `--` are files. -/
def CmdLine (items : List Item) (argv : List Str) : Prop :=
  Writes items argv ∨ ∃ is fs ts, Writes is ts ∧ items = is ++ fs.map .file ∧ argv = ts ++ str% "--" :: fs

/-- The values given for an option, in their order. -/
def valuesOf (items : List Item) (o : Opt) : List Str :=
  items.filterMap fun | .opt o' v => if o' = o then some v else none | _ => none

/-- The files, in their order. -/
def filesOf (items : List Item) : List Str := items.filterMap fun | .file f => some f | _ => none

/-- Nothing is given twice that must not be. -/
def NotTwice (items : List Item) : Prop :=
  (∀ o, ¬ o.Repeats → (valuesOf items o).length ≤ 1) ∧ ∀ f, items.count (.flag f) ≤ 1

/-- A list that is only there if something was given. -/
def given (vs : List Str) : Option (List Str) := if vs = [] then none else some vs

/-- What the options are. -/
structure Means (arch : Str) (items : List Item) (o : Run.Options) : Prop where
  filenames : o.filenames = filesOf items
  output : o.output = (valuesOf items .output).head?
  store : o.store = (valuesOf items .store).head?
  debugId : o.debugId = (valuesOf items .debugId).head?
  codeId : o.codeId = (valuesOf items .codeId).head?
  symbolServer : o.symbolServer = (valuesOf items .symbolServer).head?
  checkCfi : o.checkCfi = true ↔ .flag .checkCfi ∈ items
  arch : o.arch = (valuesOf items .arch).head?.getD arch
  listArch : o.listArch = true ↔ .flag .listArch ∈ items
  numJobs : o.numJobs = (valuesOf items .jobs).head?.getD []
  mappingVar : o.mappingVar = given (valuesOf items .mappingVar)
  mappingSrc : o.mappingSrc = given (valuesOf items .mappingSrc)
  mappingDest : o.mappingDest = given (valuesOf items .mappingDest)
  mappingFile : o.mappingFile = (valuesOf items .mappingFile).head?
  inlines : o.inlines = true ↔ .flag .inlines ∈ items
  extraInfo : o.extraInfo = given (valuesOf items .extraInfo)
  noGenerator : o.noGenerator = true ↔ .flag .noGenerator ∈ items

/-- A text that asks for help or the version. -/
def Asks (t : Str) : Prop := t = str% "--help" ∨ t = str% "--version" ∨ ∃ r, t = '-' :: 'h' :: r ∨ t = '-' :: 'V' :: r

end CommandLine
end DumpSyms
