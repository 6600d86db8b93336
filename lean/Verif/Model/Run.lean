import Verif.Model.Dumper
import Verif.Model.Main
import Verif.Model.Writing
/-!
# Model of src/action.rs, of `several_files` around its threads, and of `main`

The options are given as a record (`Model/Cli` makes it from the command line).  Simplification: in a run over several files, what one
worker reads for one input is read from one state of the disk.  The states may differ from input to input, since the workers put what they
download into the caches of the symbol servers (`Meanwhile`).
-/
namespace DumpSyms
namespace Run

/-- The options of src/main.rs:21-138 that are used (`--type` and `--verbose` are left out).  `filenames` is never empty. -/
structure Options where
  filenames : List Str
  output : Option Str
  store : Option Str
  debugId : Option Str
  codeId : Option Str
  symbolServer : Option Str
  checkCfi : Bool
  arch : Str
  listArch : Bool
  numJobs : Str
  mappingVar : Option (List Str)
  mappingSrc : Option (List Str)
  mappingDest : Option (List Str)
  mappingFile : Option Str
  inlines : Bool
  extraInfo : Option (List Str)
  noGenerator : Bool

/-- src/action.rs:14-18 `enum Action`. -/
inductive Action where
  | dump (config : Dumper.Config)
  | listArch

/-- src/main.rs:203-240: the action of the options. -/
def actionOf (cpus : Nat) (o : Options) : Action :=
  if o.listArch then .listArch
  else .dump {
    output := Output.Out.ofOptions o.output o.store
    symbolServer := o.symbolServer
    debugId := o.debugId
    codeId := o.codeId
    arch := o.arch
    numJobs := Main.numJobs cpus o.numJobs
    checkCfi := o.checkCfi
    emitInlines := o.inlines
    mappingVar := o.mappingVar
    mappingSrc := o.mappingSrc
    mappingDest := o.mappingDest
    mappingFile := o.mappingFile }

/-- src/action.rs:33-39 and 47-52: listing the architectures of one file, on standard output. -/
def listArch (env : Dumper.Env) (path : Str) (d : Disk) (out : Output.World) : Res Unit × Output.World :=
  match Utils.getFilename path with
  | .ok filename =>
    match Files.readFile env.net.cab d path with
    | .ok buf =>
      match Dumper.machoArchitectures env.parsers buf filename with
      | .ok text => (.ok (), out.receive .stdout (Utf8.encode text))
      | .err m => (.err m, out)
      | .panic => (.panic, out)
    | .err m => (.err m, out)
    | .panic => (.panic, out)
  | .err m => (.err m, out)
  | .panic => (.panic, out)

/-- src/action.rs:46-54: the files one after the other, up to the first failure. -/
def listArchs (env : Dumper.Env) (d : Disk) : List Str → Output.World → Res Unit × Output.World
  | [], out => (.ok (), out)
  | f :: fs, out =>
    let r := listArch env f d out
    match r.1 with
    | .ok () => listArchs env d fs r.2
    | _ => r

/-- How the hash tables of a run over several files are iterated. -/
structure Orders where
  results : List (Str × Threads.Item) → List (Str × Threads.Item)
  tables : List Nat → List (Str × Nat) → List (Str × Nat)

/-- The states of the disk (and of the list of requests) that a worker can meet while other workers are reading their inputs.  They write
nothing but files of the caches of the symbol servers they find configured (src/windows/utils.rs:75, src/cache.rs:118-147), for the debug
ids of PE files, where there was nothing at the start.  Such a file may be complete or not, and the requests sent may be any.
(`parse_meanwhile` says that the workers keep to this.) -/
inductive Meanwhile (env : Dumper.Env) (w : Cache.World) : Cache.World → Prop where
  | start : Meanwhile env w w
  | asked (w' : Cache.World) (log : List Cache.Request) (h : Meanwhile env w w') : Meanwhile env w { w' with log := log }
  | cached (w' : Cache.World) (servers : List Cache.Server) (s : Cache.Server) (dir name : Str) (buf : Bytes) (pe : WinUtils.Pe) (data : Bytes)
      (h : Meanwhile env w w') (hs : Cache.getSymServers env.home w'.disk none = .ok (some servers)) (hm : s ∈ servers)
      (hc : s.cache = some dir) (hn : ∃ p, Path.fileName p = some name) (hpe : Dumper.parsePe env.parsers buf = some pe)
      (hf : w.disk (Cache.cachePath dir (Utils.getBase name) pe.debugId name) = none) :
      Meanwhile env w { w' with disk := w'.disk.write (Cache.cachePath dir (Utils.getBase name) pe.debugId name) data }

/-- src/dumper.rs:454-490: what the threads of `several_files` work with; the input number `i` is read from the state `ws i` of the disk.
(Whether writing a module succeeds does not depend on what has been written before: `store_result`.) -/
def threads (env : Dumper.Env) (extra : Option (List Str)) (config : Dumper.Config) (files : List Str) (ws : Nat → Cache.World)
    (orders : Orders) (mapping : Option (List Mapping.Generator)) (arch : Str) (out : Output.World) : Threads.Env where
  n := min config.numJobs files.length
  files := files.length
  parse := fun i =>
    match files[i]? with
    | some f => (Dumper.parseInput env config mapping arch f (ws i)).1
    | none => .panic
  store := fun o => (Output.store env.io extra config.output config.checkCfi o out).1
  order := orders.results
  hash := orders.tables

/-- src/dumper.rs:455-510 `several_files`: how it can end, and what is written then.  (It may also not end.)  The workers write at the same
time. -/
inductive SeveralFiles (env : Dumper.Env) (extra : Option (List Str)) (config : Dumper.Config) (files : List Str) (ws : Nat → Cache.World)
    (orders : Orders) (out : Output.World) : Res Unit → Output.World → Prop where
  | badOptions (m : Str) (h : Dumper.prepare env config = .err m) : SeveralFiles env extra config files ws orders out (.err m) out
  | badMapping (h : Dumper.prepare env config = .panic) : SeveralFiles env extra config files ws orders out .panic out
  | returned (mapping : Option (List Mapping.Generator)) (arch : Str) (m : Threads.Moment)
      (h : Dumper.prepare env config = .ok (mapping, arch))
      (hr : Threads.Moments (threads env extra config files ws orders mapping arch out)
        (Output.callsOf env.io extra config.output config.checkCfi) out m)
      (hs : m.s.Returned (threads env extra config files ws orders mapping arch out)) :
      SeveralFiles env extra config files ws orders out (.ok ()) m.out
  | crashed (mapping : Option (List Mapping.Generator)) (arch : Str) (m : Threads.Moment)
      (h : Dumper.prepare env config = .ok (mapping, arch))
      (hr : Threads.Moments (threads env extra config files ws orders mapping arch out)
        (Output.callsOf env.io extra config.output config.checkCfi) out m)
      (hs : m.s.crashed = true) :
      SeveralFiles env extra config files ws orders out .panic m.out

/-- src/action.rs:20-58 `Action::action`. -/
inductive Acts (env : Dumper.Env) (extra : Option (List Str)) (files : List Str) (w : Cache.World) (orders : Orders)
    (out : Output.World) : Action → Res Unit → Output.World → Prop where
  | list : Acts env extra files w orders out .listArch (listArchs env w.disk files out).1 (listArchs env w.disk files out).2
  | single (config : Dumper.Config) (f : Str) (h : files = [f]) :
      Acts env extra files w orders out (.dump config) (Dumper.singleFile env extra config f w out).1
        (Dumper.singleFile env extra config f w out).2.2
  | several (config : Dumper.Config) (ws : Nat → Cache.World) (r : Res Unit) (out' : Output.World) (h : files.length ≠ 1)
      (hw : ∀ i, Meanwhile env w (ws i)) (hs : SeveralFiles env extra config files ws orders out r out') : Acts env extra files w orders out (.dump config) r out'

/-- The exit status of the process: 0, 1 (src/main.rs:242-245), or 101 after a panic of the main thread. -/
def exitStatus : Res Unit → Nat
  | .ok () => 0
  | .err _ => 1
  | .panic => 101

/-- src/main.rs:140-246 `main`: how a process can end, and what is written then.  `cpus` is the number of CPUs. -/
inductive Exits (env : Dumper.Env) (version : Str) (cpus : Nat) (o : Options) (w : Cache.World) (orders : Orders) (out : Output.World) :
    Nat → Output.World → Prop where
  | badInfo (h : ∀ e, Main.getExtraInfo version o.extraInfo o.noGenerator ≠ .ok e) : Exits env version cpus o w orders out 101 out
  | acts (extra : List Str) (r : Res Unit) (out' : Output.World)
      (h : Main.getExtraInfo version o.extraInfo o.noGenerator = .ok extra)
      (ha : Acts env (some extra) o.filenames w orders out (actionOf cpus o) r out') :
      Exits env version cpus o w orders out (exitStatus r) out'

/-- src/main.rs:242-245: the error that a process reports (`eprintln!`) before it ends with status 1.  (What is logged on the way is not
part of this.) -/
inductive Reports (env : Dumper.Env) (version : Str) (cpus : Nat) (o : Options) (w : Cache.World) (orders : Orders) (out : Output.World) :
    Str → Prop where
  | mk (extra : List Str) (m : Str) (out' : Output.World) (h : Main.getExtraInfo version o.extraInfo o.noGenerator = .ok extra)
      (ha : Acts env (some extra) o.filenames w orders out (actionOf cpus o) (.err m) out') : Reports env version cpus o w orders out m

/-- What the destinations can hold at some moment of a process that dumps (src/main.rs:140-246), for example when it is killed: before
anything is written, while the module of a single file is written, or while the threads of a run over several files are at work. -/
inductive During (env : Dumper.Env) (version : Str) (cpus : Nat) (o : Options) (w : Cache.World) (orders : Orders) (out : Output.World) :
    Output.World → Prop where
  | before : During env version cpus o w orders out out
  | single (extra : List Str) (config : Dumper.Config) (f : Str) (m : ObjectInfo) (todo : List Output.Todo) (out' : Output.World)
      (h : Main.getExtraInfo version o.extraInfo o.noGenerator = .ok extra) (ha : actionOf cpus o = .dump config) (hf : o.filenames = [f])
      (hm : (Dumper.readSingle env config f w).1 = .ok m)
      (hw : Output.Written env.io (some extra) config.output config.checkCfi m out todo out') : During env version cpus o w orders out out'
  | several (extra : List Str) (config : Dumper.Config) (mapping : Option (List Mapping.Generator)) (arch : Str)
      (ws : Nat → Cache.World) (m : Threads.Moment) (hw : ∀ i, Meanwhile env w (ws i))
      (h : Main.getExtraInfo version o.extraInfo o.noGenerator = .ok extra) (ha : actionOf cpus o = .dump config)
      (hf : o.filenames.length ≠ 1) (hp : Dumper.prepare env config = .ok (mapping, arch))
      (hm : Threads.Moments (threads env (some extra) config o.filenames ws orders mapping arch out)
        (Output.callsOf env.io (some extra) config.output config.checkCfi) out m) : During env version cpus o w orders out m.out

end Run
end DumpSyms
