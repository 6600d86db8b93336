import Verif.Model.WinDumper
import Verif.Model.Run
/-!
# Model of `several_files`, of src/action.rs and of `main` built for Windows

As `Verif.Model.Writing` and `Verif.Model.Run`, with the paths of Windows.  The threads, the calls of a write and the options are the same as there.
-/
namespace DumpSyms
namespace WinHost
open WinPath
open Output (Out IoEnv Todo todoTo)
open Run (Options Orders Action actionOf exitStatus)

/-- The calls of `writeStore` (src/dumper.rs:229-237). -/
def todoStore (io : IoEnv) (text : Res Str) (p : Str) : Res Unit × List Todo :=
  match parent p with
  | none => (.panic, [])
  | some d =>
    if io.mkdirs d then
      let r := todoTo io text (.path p)
      (r.1, .mkdirs d :: r.2)
    else (.err (str% "create_dir_all"), [])

/-- The calls of `store` (src/dumper.rs:203-246). -/
def todoOf (io : IoEnv) (extra : Option (List Str)) (out : Out) (checkCfi : Bool) (o : ObjectInfo) : Res Unit × List Todo :=
  if checkCfi && !o.hasStack then (.err (str% "No CFI data"), [])
  else
    let d := destinations out o
    let text := o.display extra
    let r := match d.2 with
      | some p => todoStore io text p
      | none => (.ok (), [])
    match r.1 with
    | .ok () =>
      match d.1 with
      | some fo =>
        let r' := todoTo io text fo
        (r'.1, r.2 ++ r'.2)
      | none => r
    | _ => r

/-- The calls that a module takes. -/
def callsOf (io : IoEnv) (extra : Option (List Str)) (out : Out) (checkCfi : Bool) (o : ObjectInfo) : List Todo := (todoOf io extra out checkCfi o).2

/-- src/dumper.rs:410-417: what a worker does with an input of a multi-file run. -/
def parseInput (env : Dumper.Env) (config : Dumper.Config) (mapping : Option (List Mapping.Generator)) (arch path : Str) (w : Cache.World) :
    Res ObjectInfo × Cache.World :=
  match getFilename path with
  | .ok filename =>
    match readFile env.net.cab w.disk path with
    | .ok buf => getObjectInfo env buf path filename mapping arch none config.emitInlines w
    | .err m => (.err m, w)
    | .panic => (.panic, w)
  | .err m => (.err m, w)
  | .panic => (.panic, w)

/-- As `Run.Meanwhile`: the states of the disk that a worker can meet while others read their inputs (src/windows/utils.rs:75, src/cache.rs:118-147).
(`parse_meanwhile` says that the workers keep to this.) -/
inductive Meanwhile (env : Dumper.Env) (w : Cache.World) : Cache.World → Prop where
  | start : Meanwhile env w w
  | asked (w' : Cache.World) (log : List Cache.Request) (h : Meanwhile env w w') : Meanwhile env w { w' with log := log }
  | cached (w' : Cache.World) (servers : List Cache.Server) (s : Cache.Server) (dir name : Str) (buf : Bytes) (pe : WinUtils.Pe) (data : Bytes)
      (h : Meanwhile env w w') (hs : getSymServers env.home w'.disk none = .ok (some servers)) (hm : s ∈ servers)
      (hc : s.cache = some dir) (hn : ∃ p, WinPath.fileName p = some name) (hpe : Dumper.parsePe env.parsers buf = some pe)
      (hf : w.disk (cachePath dir (getBase name) pe.debugId name) = none) :
      Meanwhile env w { w' with disk := w'.disk.write (cachePath dir (getBase name) pe.debugId name) data }

/-- src/dumper.rs:454-490: what the threads of `several_files` work with; the input number `i` is read from the state `ws i` of the disk. -/
def threads (env : Dumper.Env) (extra : Option (List Str)) (config : Dumper.Config) (files : List Str) (ws : Nat → Cache.World)
    (orders : Orders) (mapping : Option (List Mapping.Generator)) (arch : Str) (out : Output.World) : Threads.Env where
  n := min config.numJobs files.length
  files := files.length
  parse := fun i =>
    match files[i]? with
    | some f => (parseInput env config mapping arch f (ws i)).1
    | none => .panic
  store := fun o => (store env.io extra config.output config.checkCfi o out).1
  order := orders.results
  hash := orders.tables

/-- src/dumper.rs:455-510 `several_files`: how it can end, and what is written then.  (It may also not end.) -/
inductive SeveralFiles (env : Dumper.Env) (extra : Option (List Str)) (config : Dumper.Config) (files : List Str) (ws : Nat → Cache.World)
    (orders : Orders) (out : Output.World) : Res Unit → Output.World → Prop where
  | badOptions (m : Str) (h : Dumper.prepare env config = .err m) : SeveralFiles env extra config files ws orders out (.err m) out
  | badMapping (h : Dumper.prepare env config = .panic) : SeveralFiles env extra config files ws orders out .panic out
  | returned (mapping : Option (List Mapping.Generator)) (arch : Str) (m : Threads.Moment)
      (h : Dumper.prepare env config = .ok (mapping, arch))
      (hr : Threads.Moments (threads env extra config files ws orders mapping arch out)
        (callsOf env.io extra config.output config.checkCfi) out m)
      (hs : m.s.Returned (threads env extra config files ws orders mapping arch out)) :
      SeveralFiles env extra config files ws orders out (.ok ()) m.out
  | crashed (mapping : Option (List Mapping.Generator)) (arch : Str) (m : Threads.Moment)
      (h : Dumper.prepare env config = .ok (mapping, arch))
      (hr : Threads.Moments (threads env extra config files ws orders mapping arch out)
        (callsOf env.io extra config.output config.checkCfi) out m)
      (hs : m.s.crashed = true) :
      SeveralFiles env extra config files ws orders out .panic m.out

/-- src/action.rs:33-39 and 47-52: listing the architectures of one file, on standard output. -/
def listArch (env : Dumper.Env) (path : Str) (d : Disk) (out : Output.World) : Res Unit × Output.World :=
  match getFilename path with
  | .ok filename =>
    match readFile env.net.cab d path with
    | .ok buf =>
      match Dumper.machoArchitectures env.parsers buf filename with
      | .ok text => (.ok (), out.receive .stdout (Utf8.encode text))
      | .err m => (.err m, out)
      | .panic => (.panic, out)
    | .err m => (.err m, out)
    | .panic => (.panic, out)
  | .err m => (.err m, out)
  | .panic => (.panic, out)

/-- src/action.rs:46-54: the files one after the other, up to the first failure. -/
def listArchs (env : Dumper.Env) (d : Disk) : List Str → Output.World → Res Unit × Output.World
  | [], out => (.ok (), out)
  | f :: fs, out =>
    let r := listArch env f d out
    match r.1 with
    | .ok () => listArchs env d fs r.2
    | _ => r

/-- src/action.rs:20-58 `Action::action`. -/
inductive Acts (env : Dumper.Env) (extra : Option (List Str)) (files : List Str) (w : Cache.World) (orders : Orders)
    (out : Output.World) : Action → Res Unit → Output.World → Prop where
  | list : Acts env extra files w orders out .listArch (listArchs env w.disk files out).1 (listArchs env w.disk files out).2
  | single (config : Dumper.Config) (f : Str) (h : files = [f]) :
      Acts env extra files w orders out (.dump config) (singleFile env extra config f w out).1 (singleFile env extra config f w out).2.2
  | several (config : Dumper.Config) (ws : Nat → Cache.World) (r : Res Unit) (out' : Output.World) (h : files.length ≠ 1)
      (hw : ∀ i, Meanwhile env w (ws i)) (hs : SeveralFiles env extra config files ws orders out r out') : Acts env extra files w orders out (.dump config) r out'

/-- src/main.rs:140-246 `main`: how a process can end, and what is written then.  `cpus` is the number of CPUs. -/
inductive Exits (env : Dumper.Env) (version : Str) (cpus : Nat) (o : Options) (w : Cache.World) (orders : Orders) (out : Output.World) :
    Nat → Output.World → Prop where
  | badInfo (h : ∀ e, Main.getExtraInfo version o.extraInfo o.noGenerator ≠ .ok e) : Exits env version cpus o w orders out 101 out
  | acts (extra : List Str) (r : Res Unit) (out' : Output.World)
      (h : Main.getExtraInfo version o.extraInfo o.noGenerator = .ok extra)
      (ha : Acts env (some extra) o.filenames w orders out (actionOf cpus o) r out') :
      Exits env version cpus o w orders out (exitStatus r) out'

/-- src/main.rs:242-245: the error that a process reports. -/
inductive Reports (env : Dumper.Env) (version : Str) (cpus : Nat) (o : Options) (w : Cache.World) (orders : Orders) (out : Output.World) :
    Str → Prop where
  | mk (extra : List Str) (m : Str) (out' : Output.World) (h : Main.getExtraInfo version o.extraInfo o.noGenerator = .ok extra)
      (ha : Acts env (some extra) o.filenames w orders out (actionOf cpus o) (.err m) out') : Reports env version cpus o w orders out m

end WinHost
end DumpSyms
