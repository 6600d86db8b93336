import Verif.Model.Offline
import Verif.Model.WinRun
/-!
# Model of src/dumper.rs built for Windows without the `http` feature

As `Verif.Model.Offline`, with the paths of Windows.
-/
namespace DumpSyms
namespace WinOffline
open Dumper (Env Config)
open WinHost (getFilename readFile)

/-- src/dumper.rs:302-337 `get_object_info`. -/
def getObjectInfo (env : Env) (buf : Bytes) (path filename : Str) (mapping : Option (List Mapping.Generator)) (arch : Str) (inlines : Bool)
    (d : Disk) : Res ObjectInfo :=
  match env.parsers.peek buf with
  | .elf => Dumper.fromElf env buf filename .linux mapping inlines
  | .pdb => WinHost.getPdbObjectInfo env buf path filename mapping inlines d
  | .pe =>
    match Offline.getPePdbObjectInfo with
    | .ok info => .ok info
    | .err _ => Dumper.getPeObjectInfo env buf filename
    | .panic => .panic
  | .machO => Dumper.fromMacho env buf filename arch mapping inlines
  | .other => .err (str% "Unknown file format")

/-- src/dumper.rs:267-274 `get_from_id`: the ids are ignored. -/
def getFromId (env : Env) (path : Str) (d : Disk) : Res Bytes := readFile env.net.cab d path

/-- src/dumper.rs:276-298: what `single_file` does before writing. -/
def readSingle (env : Env) (config : Config) (path : Str) (d : Disk) : Res ObjectInfo := do
  let filename ← getFilename path
  let buf ← getFromId env path d
  let (mapping, arch) ← Dumper.prepare env config
  getObjectInfo env buf path filename mapping arch config.emitInlines d

/-- src/dumper.rs:276-300 `single_file`. -/
def singleFile (env : Env) (extra : Option (List Str)) (config : Config) (path : Str) (d : Disk) (out : Output.World) :
    Res Unit × Output.World :=
  match readSingle env config path d with
  | .ok info => WinHost.store env.io extra config.output config.checkCfi info out
  | .err m => (.err m, out)
  | .panic => (.panic, out)

/-- src/dumper.rs:410-417: what a worker does with an input of a multi-file run. -/
def parseInput (env : Env) (config : Config) (mapping : Option (List Mapping.Generator)) (arch path : Str) (d : Disk) : Res ObjectInfo := do
  let filename ← getFilename path
  let buf ← readFile env.net.cab d path
  getObjectInfo env buf path filename mapping arch config.emitInlines d

/-- src/dumper.rs:454-490: what the threads of `several_files` work with.  Nobody downloads, so all inputs are read from the same disk. -/
def threads (env : Env) (extra : Option (List Str)) (config : Config) (files : List Str) (d : Disk) (orders : Run.Orders)
    (mapping : Option (List Mapping.Generator)) (arch : Str) (out : Output.World) : Threads.Env where
  n := min config.numJobs files.length
  files := files.length
  parse := fun i =>
    match files[i]? with
    | some f => parseInput env config mapping arch f d
    | none => .panic
  store := fun o => (WinHost.store env.io extra config.output config.checkCfi o out).1
  order := orders.results
  hash := orders.tables

/-- src/dumper.rs:455-510 `several_files`: how it can end, and what is written then. -/
inductive SeveralFiles (env : Env) (extra : Option (List Str)) (config : Config) (files : List Str) (d : Disk) (orders : Run.Orders)
    (out : Output.World) : Res Unit → Output.World → Prop where
  | badOptions (m : Str) (h : Dumper.prepare env config = .err m) : SeveralFiles env extra config files d orders out (.err m) out
  | badMapping (h : Dumper.prepare env config = .panic) : SeveralFiles env extra config files d orders out .panic out
  | returned (mapping : Option (List Mapping.Generator)) (arch : Str) (m : Threads.Moment) (h : Dumper.prepare env config = .ok (mapping, arch))
      (hr : Threads.Moments (threads env extra config files d orders mapping arch out)
        (WinHost.callsOf env.io extra config.output config.checkCfi) out m)
      (hs : m.s.Returned (threads env extra config files d orders mapping arch out)) :
      SeveralFiles env extra config files d orders out (.ok ()) m.out
  | crashed (mapping : Option (List Mapping.Generator)) (arch : Str) (m : Threads.Moment) (h : Dumper.prepare env config = .ok (mapping, arch))
      (hr : Threads.Moments (threads env extra config files d orders mapping arch out)
        (WinHost.callsOf env.io extra config.output config.checkCfi) out m)
      (hs : m.s.crashed = true) : SeveralFiles env extra config files d orders out .panic m.out

/-- src/action.rs:20-58 `Action::action`. -/
inductive Acts (env : Env) (extra : Option (List Str)) (files : List Str) (d : Disk) (orders : Run.Orders) (out : Output.World) :
    Run.Action → Res Unit → Output.World → Prop where
  | list : Acts env extra files d orders out .listArch (WinHost.listArchs env d files out).1 (WinHost.listArchs env d files out).2
  | single (config : Config) (f : Str) (h : files = [f]) :
      Acts env extra files d orders out (.dump config) (singleFile env extra config f d out).1 (singleFile env extra config f d out).2
  | several (config : Config) (r : Res Unit) (out' : Output.World) (h : files.length ≠ 1)
      (hs : SeveralFiles env extra config files d orders out r out') : Acts env extra files d orders out (.dump config) r out'

/-- src/main.rs:140-246 `main`: how a process of this build can end, and what is written then. -/
inductive Exits (env : Env) (version : Str) (cpus : Nat) (o : Run.Options) (d : Disk) (orders : Run.Orders) (out : Output.World) :
    Nat → Output.World → Prop where
  | badInfo (h : ∀ e, Main.getExtraInfo version o.extraInfo o.noGenerator ≠ .ok e) : Exits env version cpus o d orders out 101 out
  | acts (extra : List Str) (r : Res Unit) (out' : Output.World)
      (h : Main.getExtraInfo version o.extraInfo o.noGenerator = .ok extra)
      (ha : Acts env (some extra) o.filenames d orders out (Run.actionOf cpus o) r out') :
      Exits env version cpus o d orders out (Run.exitStatus r) out'

end WinOffline
end DumpSyms
