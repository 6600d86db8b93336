import Verif.Model.Checked
import Verif.Model.Run
/-!
# The whole program in a build with overflow checks

The functions of `Model/Dumper`, `Model/Threads` and `Model/Run` between `main` and the collection and merging of objects, calling those of
`Model/Checked`.  The rest of the program has no addition or subtraction that can overflow without a crash in both builds: the counter of
`several_files` is atomic and wraps in both (src/dumper.rs:448), the positions in a mapping (src/mapping.rs:104,123), in a path of a PDB file
(src/windows/pdb.rs:54) and the capacities of buffers (src/utils.rs:28,128,214, src/mapping.rs:146, src/dumper.rs:468) are below the size of
something in memory, and the index of src/cache.rs:186 is out of range in both when the name is empty.
-/
namespace DumpSyms
namespace CheckedRun
open Dumper (Env Config)

/-- src/object_info.rs:104-183 `ObjectInfo::from_object`, called with a mapping. -/
def fromObject (env : Env) (o : ObjInput) (fileName : Str) (pe : Option ObjInput) (peName : Option Str)
    (platform : Platform) (mapping : Option (List Mapping.Generator)) (inlines : Bool) : Res ObjectInfo :=
  Checked.fromObject (Dumper.cenv env platform mapping o) inlines platform o fileName pe peName

/-- src/linux.rs:15-32 `ObjectInfo::from_elf`. -/
def fromElf (env : Env) (buf : Bytes) (fileName : Str) (platform : Platform)
    (mapping : Option (List Mapping.Generator)) (inlines : Bool) : Res ObjectInfo :=
  match env.parsers.elf buf with
  | .error m => .err m
  | .ok o => fromObject env o fileName none none platform mapping inlines

/-- src/mac.rs:16-53 `ObjectInfo::from_macho`. -/
def fromMacho (env : Env) (buf : Bytes) (fileName arch : Str) (mapping : Option (List Mapping.Generator))
    (inlines : Bool) : Res ObjectInfo :=
  match env.parsers.archive buf with
  | .error m => .err m
  | .ok objects => do
    match ← Dumper.selectObject arch objects with
    | some o => fromObject env o fileName none none .mac mapping inlines
    | none =>
      .err (str% "Cannot find a valid object for architecture " ++ arch ++ str% " in file " ++ fileName)

/-- src/windows/pdb.rs:15-35 `ObjectInfo::from_pdb`. -/
def fromPdb (env : Env) (pdb : ObjInput) (pdbName : Str) (peName : Option Str) (pe : Option ObjInput)
    (mapping : Option (List Mapping.Generator)) (inlines : Bool) : Res ObjectInfo :=
  fromObject env pdb pdbName pe peName .win mapping inlines

/-- src/windows/pdb.rs:37-50 `ObjectInfo::from_pe`. -/
def fromPe (env : Env) (peName : Str) (pe : ObjInput) (debugFileName : Option Str) : Res ObjectInfo :=
  fromObject env pe (Dumper.winPathFileName (debugFileName.getD peName)) none (some peName) .win none false

/-- src/dumper.rs:116-139 `get_pdb_object_info`. -/
def getPdbObjectInfo (env : Env) (buf : Bytes) (path filename : Str) (mapping : Option (List Mapping.Generator))
    (inlines : Bool) (d : Disk) : Res ObjectInfo :=
  match env.parsers.pdb buf with
  | .error m => .err m
  | .ok pdb => do
    match ← WinUtils.findPeForPdb env.net.cab (Dumper.parsePe env.parsers) d path pdb.debugId with
    | some (peName, peBuf) =>
      match env.parsers.pe peBuf with
      | some (pe, _) => fromPdb env pdb filename (some peName) (some pe) mapping inlines
      | none => .panic
    | none => fromPdb env pdb filename none none mapping inlines

/-- src/dumper.rs:141-167 `get_pe_pdb_object_info`. -/
def getPePdbObjectInfo (env : Env) (buf : Bytes) (path filename : Str) (mapping : Option (List Mapping.Generator))
    (symbolServer : Option Str) (inlines : Bool) (w : Cache.World) : Res ObjectInfo × Cache.World :=
  match Cache.getSymServers env.home w.disk symbolServer with
  | .ok servers =>
    let r := WinUtils.getPePdbBuf env.net (Dumper.parsePe env.parsers) env.cwd path buf servers w
    match r.1 with
    | .ok (some (_, pdbBuf, pdbName)) =>
      match env.parsers.pdb pdbBuf with
      | .error m => (.err m, r.2)
      | .ok pdb =>
        (fromPdb env pdb pdbName (some filename) ((env.parsers.pe buf).map (·.1)) mapping inlines, r.2)
    | .ok none => (.err (str% "No pdb file found"), r.2)
    | .err m => (.err m, r.2)
    | .panic => (.panic, r.2)
  | .err m => (.err m, w)
  | .panic => (.panic, w)

/-- src/dumper.rs:181-186 `get_pe_object_info`. -/
def getPeObjectInfo (env : Env) (buf : Bytes) (filename : Str) : Res ObjectInfo :=
  match env.parsers.pe buf with
  | none => .panic
  | some (pe, debugFileName) => fromPe env filename pe debugFileName

/-- src/dumper.rs:302-337 `get_object_info`. -/
def getObjectInfo (env : Env) (buf : Bytes) (path filename : Str) (mapping : Option (List Mapping.Generator)) (arch : Str)
    (symbolServer : Option Str) (inlines : Bool) (w : Cache.World) : Res ObjectInfo × Cache.World :=
  match env.parsers.peek buf with
  | .elf => (fromElf env buf filename .linux mapping inlines, w)
  | .pdb => (getPdbObjectInfo env buf path filename mapping inlines w.disk, w)
  | .pe =>
    let r := getPePdbObjectInfo env buf path filename mapping symbolServer inlines w
    match r.1 with
    | .ok info => (.ok info, r.2)
    | .err _ => (getPeObjectInfo env buf filename, r.2)
    | .panic => (.panic, r.2)
  | .machO => (fromMacho env buf filename arch mapping inlines, w)
  | .other => (.err (str% "Unknown file format"), w)

/-- src/dumper.rs:276-298: what `single_file` does before writing. -/
def readSingle (env : Env) (config : Config) (path : Str) (w : Cache.World) : Res ObjectInfo × Cache.World :=
  match Utils.getFilename path with
  | .ok filename =>
    let r := Dumper.getFromId env config path filename w
    match r.1 with
    | .ok buf =>
      match Dumper.prepare env config with
      | .ok (mapping, arch) =>
        getObjectInfo env buf path filename mapping arch config.symbolServer config.emitInlines r.2
      | .err m => (.err m, r.2)
      | .panic => (.panic, r.2)
    | .err m => (.err m, r.2)
    | .panic => (.panic, r.2)
  | .err m => (.err m, w)
  | .panic => (.panic, w)

/-- src/dumper.rs:276-300 `single_file`. -/
def singleFile (env : Env) (extra : Option (List Str)) (config : Config) (path : Str) (w : Cache.World) (out : Output.World) :
    Res Unit × Cache.World × Output.World :=
  let r := readSingle env config path w
  match r.1 with
  | .ok info =>
    let s := Output.store env.io extra config.output config.checkCfi info out
    (s.1, r.2, s.2)
  | .err m => (.err m, r.2, out)
  | .panic => (.panic, r.2, out)

/-- src/dumper.rs:410-417: what a worker does with an input of a multi-file run. -/
def parseInput (env : Env) (config : Config) (mapping : Option (List Mapping.Generator)) (arch path : Str) (w : Cache.World) :
    Res ObjectInfo × Cache.World :=
  match Utils.getFilename path with
  | .ok filename =>
    match Files.readFile env.net.cab w.disk path with
    | .ok buf => getObjectInfo env buf path filename mapping arch none config.emitInlines w
    | .err m => (.err m, w)
    | .panic => (.panic, w)
  | .err m => (.err m, w)
  | .panic => (.panic, w)

section Threads
open Threads

/-- src/dumper.rs:387-453 `consumer`: what a worker does next (see `Threads.work`).  Only merging (line 422) has arithmetic. -/
def work (env : Threads.Env) (s : State) (i : Nat) : W → Option (W × State)
  | .merging d =>
    if s.locked then none
    else if s.poisoned then some (.panicked d.src [], s)
    else
      match s.table.lookup d.info.debugId with
      | none =>
        some (.check, { s with table := tableInsert s.table d.info.debugId d, merged := d.src ++ s.merged })
      | some prev =>
        match Checked.merge (env.hash (d.src ++ prev.src)) d.info prev.info with
        | .ok c =>
          some (.check, { s with
            table := tableInsert (tableRemove s.table d.info.debugId) c.debugId { src := d.src ++ prev.src, info := c }
            merged := d.src ++ s.merged })
        | .err _ => some (.aborting d.src prev.src env.n, { s with
            table := tableRemove s.table d.info.debugId
            locked := true })
        | .panic => some (.panicked d.src prev.src, { s with
            table := tableRemove s.table d.info.debugId
            poisoned := true })
  | w => Threads.work env s i w

/-- One step of a thread (see `Threads.act`). -/
def act (env : Threads.Env) (a : Action) (s : State) : Option State :=
  match a with
  | .worker i =>
    if s.crashed then none
    else match s.ws[i]? with
      | none => none
      | some w => (work env s i w).map fun r => { r.2 with ws := s.ws.set i r.1 }
  | a => Threads.act env a s

/-- One step, of a thread or of the writing of a worker (see `Threads.Turn.go`). -/
def go (env : Threads.Env) (calls : ObjectInfo → List Output.Todo) : Turn → Moment → Option Moment
  | .move (.worker i), m =>
    if m.todo i = [] then
      (act env (.worker i) m.s).map fun s => { m with s := s, todo := fun j => if j = i then s.todo calls i else m.todo j }
    else none
  | t, m => t.go env calls m

/-- The moments a run can go through. -/
inductive Moments (env : Threads.Env) (calls : ObjectInfo → List Output.Todo) (out : Output.World) : Moment → Prop where
  | init : Moments env calls out ⟨init env, out, fun _ => []⟩
  | step {m m' : Moment} (a : Turn) : Moments env calls out m → go env calls a m = some m' → Moments env calls out m'

end Threads

/-- src/dumper.rs:454-490: what the threads of `several_files` work with (see `Run.threads`). -/
def threads (env : Env) (extra : Option (List Str)) (config : Config) (files : List Str) (ws : Nat → Cache.World)
    (orders : Run.Orders) (mapping : Option (List Mapping.Generator)) (arch : Str) (out : Output.World) : Threads.Env where
  n := min config.numJobs files.length
  files := files.length
  parse := fun i =>
    match files[i]? with
    | some f => (parseInput env config mapping arch f (ws i)).1
    | none => .panic
  store := fun o => (Output.store env.io extra config.output config.checkCfi o out).1
  order := orders.results
  hash := orders.tables

/-- src/dumper.rs:455-510 `several_files`: how it can end, and what is written then. -/
inductive SeveralFiles (env : Env) (extra : Option (List Str)) (config : Config) (files : List Str) (ws : Nat → Cache.World)
    (orders : Run.Orders) (out : Output.World) : Res Unit → Output.World → Prop where
  | badOptions (m : Str) (h : Dumper.prepare env config = .err m) : SeveralFiles env extra config files ws orders out (.err m) out
  | badMapping (h : Dumper.prepare env config = .panic) : SeveralFiles env extra config files ws orders out .panic out
  | returned (mapping : Option (List Mapping.Generator)) (arch : Str) (m : Threads.Moment)
      (h : Dumper.prepare env config = .ok (mapping, arch))
      (hr : Moments (threads env extra config files ws orders mapping arch out)
        (Output.callsOf env.io extra config.output config.checkCfi) out m)
      (hs : m.s.Returned (threads env extra config files ws orders mapping arch out)) :
      SeveralFiles env extra config files ws orders out (.ok ()) m.out
  | crashed (mapping : Option (List Mapping.Generator)) (arch : Str) (m : Threads.Moment)
      (h : Dumper.prepare env config = .ok (mapping, arch))
      (hr : Moments (threads env extra config files ws orders mapping arch out)
        (Output.callsOf env.io extra config.output config.checkCfi) out m)
      (hs : m.s.crashed = true) :
      SeveralFiles env extra config files ws orders out .panic m.out

/-- src/action.rs:20-58 `Action::action`. -/
inductive Acts (env : Env) (extra : Option (List Str)) (files : List Str) (w : Cache.World) (orders : Run.Orders)
    (out : Output.World) : Run.Action → Res Unit → Output.World → Prop where
  | list : Acts env extra files w orders out .listArch (Run.listArchs env w.disk files out).1 (Run.listArchs env w.disk files out).2
  | single (config : Config) (f : Str) (h : files = [f]) :
      Acts env extra files w orders out (.dump config) (singleFile env extra config f w out).1
        (singleFile env extra config f w out).2.2
  | several (config : Config) (ws : Nat → Cache.World) (r : Res Unit) (out' : Output.World) (h : files.length ≠ 1)
      (hw : ∀ i, Run.Meanwhile env w (ws i)) (hs : SeveralFiles env extra config files ws orders out r out') :
      Acts env extra files w orders out (.dump config) r out'

/-- src/main.rs:140-246 `main`: how a process can end, and what is written then. -/
inductive Exits (env : Env) (version : Str) (cpus : Nat) (o : Run.Options) (w : Cache.World) (orders : Run.Orders) (out : Output.World) :
    Nat → Output.World → Prop where
  | badInfo (h : ∀ e, Main.getExtraInfo version o.extraInfo o.noGenerator ≠ .ok e) : Exits env version cpus o w orders out 101 out
  | acts (extra : List Str) (r : Res Unit) (out' : Output.World)
      (h : Main.getExtraInfo version o.extraInfo o.noGenerator = .ok extra)
      (ha : Acts env (some extra) o.filenames w orders out (Run.actionOf cpus o) r out') :
      Exits env version cpus o w orders out (Run.exitStatus r) out'

end CheckedRun
end DumpSyms
