import Verif.Model.CheckedRun
import Verif.Model.WinRun
/-!
# The whole program in a build with overflow checks for Windows

As `Model/CheckedRun`, with the paths of Windows (`Model/WinDumper`, `Model/WinRun`).  The threads are the same as there.
-/
namespace DumpSyms
namespace WinChecked
open Dumper (Env Config)
open CheckedRun (fromElf fromMacho fromPdb getPeObjectInfo Moments)

/-- src/dumper.rs:116-139 `get_pdb_object_info`. -/
def getPdbObjectInfo (env : Env) (buf : Bytes) (path filename : Str) (mapping : Option (List Mapping.Generator))
    (inlines : Bool) (d : Disk) : Res ObjectInfo :=
  match env.parsers.pdb buf with
  | .error m => .err m
  | .ok pdb => do
    match ← WinHost.findPeForPdb env.net.cab (Dumper.parsePe env.parsers) d path pdb.debugId with
    | some (peName, peBuf) =>
      match env.parsers.pe peBuf with
      | some (pe, _) => fromPdb env pdb filename (some peName) (some pe) mapping inlines
      | none => .panic
    | none => fromPdb env pdb filename none none mapping inlines

/-- src/dumper.rs:141-167 `get_pe_pdb_object_info`. -/
def getPePdbObjectInfo (env : Env) (buf : Bytes) (path filename : Str) (mapping : Option (List Mapping.Generator))
    (symbolServer : Option Str) (inlines : Bool) (w : Cache.World) : Res ObjectInfo × Cache.World :=
  match WinHost.getSymServers env.home w.disk symbolServer with
  | .ok servers =>
    let r := WinHost.getPePdbBuf env.net (Dumper.parsePe env.parsers) env.cwd path buf servers w
    match r.1 with
    | .ok (some (_, pdbBuf, pdbName)) =>
      match env.parsers.pdb pdbBuf with
      | .error m => (.err m, r.2)
      | .ok pdb =>
        (fromPdb env pdb pdbName (some filename) ((env.parsers.pe buf).map (·.1)) mapping inlines, r.2)
    | .ok none => (.err (str% "No pdb file found"), r.2)
    | .err m => (.err m, r.2)
    | .panic => (.panic, r.2)
  | .err m => (.err m, w)
  | .panic => (.panic, w)

/-- src/dumper.rs:302-337 `get_object_info`. -/
def getObjectInfo (env : Env) (buf : Bytes) (path filename : Str) (mapping : Option (List Mapping.Generator)) (arch : Str)
    (symbolServer : Option Str) (inlines : Bool) (w : Cache.World) : Res ObjectInfo × Cache.World :=
  match env.parsers.peek buf with
  | .elf => (fromElf env buf filename .linux mapping inlines, w)
  | .pdb => (getPdbObjectInfo env buf path filename mapping inlines w.disk, w)
  | .pe =>
    let r := getPePdbObjectInfo env buf path filename mapping symbolServer inlines w
    match r.1 with
    | .ok info => (.ok info, r.2)
    | .err _ => (getPeObjectInfo env buf filename, r.2)
    | .panic => (.panic, r.2)
  | .machO => (fromMacho env buf filename arch mapping inlines, w)
  | .other => (.err (str% "Unknown file format"), w)

/-- src/dumper.rs:276-298: what `single_file` does before writing. -/
def readSingle (env : Env) (config : Config) (path : Str) (w : Cache.World) : Res ObjectInfo × Cache.World :=
  match WinHost.getFilename path with
  | .ok filename =>
    let r := WinHost.getFromId env config path filename w
    match r.1 with
    | .ok buf =>
      match Dumper.prepare env config with
      | .ok (mapping, arch) =>
        getObjectInfo env buf path filename mapping arch config.symbolServer config.emitInlines r.2
      | .err m => (.err m, r.2)
      | .panic => (.panic, r.2)
    | .err m => (.err m, r.2)
    | .panic => (.panic, r.2)
  | .err m => (.err m, w)
  | .panic => (.panic, w)

/-- src/dumper.rs:276-300 `single_file`. -/
def singleFile (env : Env) (extra : Option (List Str)) (config : Config) (path : Str) (w : Cache.World) (out : Output.World) :
    Res Unit × Cache.World × Output.World :=
  let r := readSingle env config path w
  match r.1 with
  | .ok info =>
    let s := WinHost.store env.io extra config.output config.checkCfi info out
    (s.1, r.2, s.2)
  | .err m => (.err m, r.2, out)
  | .panic => (.panic, r.2, out)

/-- src/dumper.rs:410-417: what a worker does with an input of a multi-file run. -/
def parseInput (env : Env) (config : Config) (mapping : Option (List Mapping.Generator)) (arch path : Str) (w : Cache.World) :
    Res ObjectInfo × Cache.World :=
  match WinHost.getFilename path with
  | .ok filename =>
    match WinHost.readFile env.net.cab w.disk path with
    | .ok buf => getObjectInfo env buf path filename mapping arch none config.emitInlines w
    | .err m => (.err m, w)
    | .panic => (.panic, w)
  | .err m => (.err m, w)
  | .panic => (.panic, w)

/-- src/dumper.rs:454-490: what the threads of `several_files` work with (see `Run.threads`). -/
def threads (env : Env) (extra : Option (List Str)) (config : Config) (files : List Str) (ws : Nat → Cache.World)
    (orders : Run.Orders) (mapping : Option (List Mapping.Generator)) (arch : Str) (out : Output.World) : Threads.Env where
  n := min config.numJobs files.length
  files := files.length
  parse := fun i =>
    match files[i]? with
    | some f => (parseInput env config mapping arch f (ws i)).1
    | none => .panic
  store := fun o => (WinHost.store env.io extra config.output config.checkCfi o out).1
  order := orders.results
  hash := orders.tables

/-- src/dumper.rs:455-510 `several_files`: how it can end, and what is written then. -/
inductive SeveralFiles (env : Env) (extra : Option (List Str)) (config : Config) (files : List Str) (ws : Nat → Cache.World)
    (orders : Run.Orders) (out : Output.World) : Res Unit → Output.World → Prop where
  | badOptions (m : Str) (h : Dumper.prepare env config = .err m) : SeveralFiles env extra config files ws orders out (.err m) out
  | badMapping (h : Dumper.prepare env config = .panic) : SeveralFiles env extra config files ws orders out .panic out
  | returned (mapping : Option (List Mapping.Generator)) (arch : Str) (m : Threads.Moment)
      (h : Dumper.prepare env config = .ok (mapping, arch))
      (hr : Moments (threads env extra config files ws orders mapping arch out)
        (WinHost.callsOf env.io extra config.output config.checkCfi) out m)
      (hs : m.s.Returned (threads env extra config files ws orders mapping arch out)) :
      SeveralFiles env extra config files ws orders out (.ok ()) m.out
  | crashed (mapping : Option (List Mapping.Generator)) (arch : Str) (m : Threads.Moment)
      (h : Dumper.prepare env config = .ok (mapping, arch))
      (hr : Moments (threads env extra config files ws orders mapping arch out)
        (WinHost.callsOf env.io extra config.output config.checkCfi) out m)
      (hs : m.s.crashed = true) :
      SeveralFiles env extra config files ws orders out .panic m.out

/-- src/action.rs:20-58 `Action::action`. -/
inductive Acts (env : Env) (extra : Option (List Str)) (files : List Str) (w : Cache.World) (orders : Run.Orders)
    (out : Output.World) : Run.Action → Res Unit → Output.World → Prop where
  | list : Acts env extra files w orders out .listArch (WinHost.listArchs env w.disk files out).1 (WinHost.listArchs env w.disk files out).2
  | single (config : Config) (f : Str) (h : files = [f]) :
      Acts env extra files w orders out (.dump config) (singleFile env extra config f w out).1
        (singleFile env extra config f w out).2.2
  | several (config : Config) (ws : Nat → Cache.World) (r : Res Unit) (out' : Output.World) (h : files.length ≠ 1)
      (hw : ∀ i, WinHost.Meanwhile env w (ws i)) (hs : SeveralFiles env extra config files ws orders out r out') :
      Acts env extra files w orders out (.dump config) r out'

/-- src/main.rs:140-246 `main`: how a process can end, and what is written then. -/
inductive Exits (env : Env) (version : Str) (cpus : Nat) (o : Run.Options) (w : Cache.World) (orders : Run.Orders) (out : Output.World) :
    Nat → Output.World → Prop where
  | badInfo (h : ∀ e, Main.getExtraInfo version o.extraInfo o.noGenerator ≠ .ok e) : Exits env version cpus o w orders out 101 out
  | acts (extra : List Str) (r : Res Unit) (out' : Output.World)
      (h : Main.getExtraInfo version o.extraInfo o.noGenerator = .ok extra)
      (ha : Acts env (some extra) o.filenames w orders out (Run.actionOf cpus o) r out') :
      Exits env version cpus o w orders out (Run.exitStatus r) out'

end WinChecked
end DumpSyms
