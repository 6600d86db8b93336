import Verif.Model.WinCache
import Verif.Model.WinHost
import Verif.Model.Dumper
/-!
# Model of the single-file part of src/dumper.rs built for Windows

The functions of `Verif.Model.Output` and `Verif.Model.Dumper` in which paths are joined or taken apart, with the paths of Windows.  What is made of the
parsed objects, and how a text is written to an open file, is the same as there.
-/
namespace DumpSyms
namespace WinHost
open WinPath
open Dumper (Env Config parsePe fromElf fromMacho fromPdb getPeObjectInfo prepare)
open Output (FileOutput Out IoEnv writeTo)

/-- src/dumper.rs:206-218: the path in the store (`none` for an empty directory). -/
def symStorePath (o : ObjectInfo) (dir : Str) : Option Str :=
  if dir = [] then none
  else some (push (push [] dir) (getPathForSym o.fileName o.debugId))

/-- src/dumper.rs:220-227: the destinations. -/
def destinations (out : Out) (o : ObjectInfo) : Option FileOutput × Option Str :=
  match out with
  | .file fo => (some fo, none)
  | .store dir => (none, symStorePath o dir)
  | .fileAndStore fo dir => (some fo, symStorePath o dir)

/-- src/dumper.rs:229-237: writing in the store (`store.parent().unwrap()` panics for a path without a parent). -/
def writeStore (io : IoEnv) (text : Res Str) (p : Str) (w : Output.World) : Res Unit × Output.World :=
  match parent p with
  | none => (.panic, w)
  | some d =>
    if io.mkdirs d then writeTo io text (.path p) { w with dirs := d :: w.dirs }
    else (.err (str% "create_dir_all"), w)

/-- src/dumper.rs:203-246 `store`.  `extra` is `EXTRA_INFO`. -/
def store (io : IoEnv) (extra : Option (List Str)) (out : Out) (checkCfi : Bool) (o : ObjectInfo) (w : Output.World) :
    Res Unit × Output.World :=
  if checkCfi && !o.hasStack then (.err (str% "No CFI data"), w)
  else
    let d := destinations out o
    let text := o.display extra
    let r := match d.2 with
      | some p => writeStore io text p w
      | none => (.ok (), w)
    match r.1 with
    | .ok () =>
      match d.1 with
      | some fo => writeTo io text fo r.2
      | none => (.ok (), r.2)
    | _ => r

/-- src/dumper.rs:116-139 `get_pdb_object_info`. -/
def getPdbObjectInfo (env : Env) (buf : Bytes) (path filename : Str) (mapping : Option (List Mapping.Generator))
    (inlines : Bool) (d : Disk) : Res ObjectInfo :=
  match env.parsers.pdb buf with
  | .error m => .err m
  | .ok pdb => do
    match ← findPeForPdb env.net.cab (parsePe env.parsers) d path pdb.debugId with
    | some (peName, peBuf) =>
      match env.parsers.pe peBuf with
      | some (pe, _) => fromPdb env pdb filename (some peName) (some pe) mapping inlines
      | none => .panic
    | none => fromPdb env pdb filename none none mapping inlines

/-- src/dumper.rs:141-167 `get_pe_pdb_object_info`. -/
def getPePdbObjectInfo (env : Env) (buf : Bytes) (path filename : Str) (mapping : Option (List Mapping.Generator))
    (symbolServer : Option Str) (inlines : Bool) (w : Cache.World) : Res ObjectInfo × Cache.World :=
  match getSymServers env.home w.disk symbolServer with
  | .ok servers =>
    let r := getPePdbBuf env.net (parsePe env.parsers) env.cwd path buf servers w
    match r.1 with
    | .ok (some (_, pdbBuf, pdbName)) =>
      match env.parsers.pdb pdbBuf with
      | .error m => (.err m, r.2)
      | .ok pdb =>
        (fromPdb env pdb pdbName (some filename) ((env.parsers.pe buf).map (·.1)) mapping inlines, r.2)
    | .ok none => (.err (str% "No pdb file found"), r.2)
    | .err m => (.err m, r.2)
    | .panic => (.panic, r.2)
  | .err m => (.err m, w)
  | .panic => (.panic, w)

/-- src/dumper.rs:302-337 `get_object_info`. -/
def getObjectInfo (env : Env) (buf : Bytes) (path filename : Str) (mapping : Option (List Mapping.Generator)) (arch : Str)
    (symbolServer : Option Str) (inlines : Bool) (w : Cache.World) : Res ObjectInfo × Cache.World :=
  match env.parsers.peek buf with
  | .elf => (fromElf env buf filename .linux mapping inlines, w)
  | .pdb => (getPdbObjectInfo env buf path filename mapping inlines w.disk, w)
  | .pe =>
    let r := getPePdbObjectInfo env buf path filename mapping symbolServer inlines w
    match r.1 with
    | .ok info => (.ok info, r.2)
    | .err _ => (getPeObjectInfo env buf filename, r.2)
    | .panic => (.panic, r.2)
  | .machO => (fromMacho env buf filename arch mapping inlines, w)
  | .other => (.err (str% "Unknown file format"), w)

/-- src/dumper.rs:248-265 `get_from_id`.  (The file name it gives back is the one given.) -/
def getFromId (env : Env) (config : Config) (path filename : Str) (w : Cache.World) : Res Bytes × Cache.World :=
  match config.debugId.or config.codeId with
  | some id =>
    match getSymServers env.home w.disk config.symbolServer with
    | .ok servers =>
      let r := searchFile env.net filename id servers w
      match r.1 with
      | .ok (some buf) => (.ok buf, r.2)
      | .ok none => (.err (str% "Impossible to get file " ++ filename ++ str% " with id " ++ id), r.2)
      | .err m => (.err m, r.2)
      | .panic => (.panic, r.2)
    | .err m => (.err m, w)
    | .panic => (.panic, w)
  | none => (readFile env.net.cab w.disk path, w)

/-- src/dumper.rs:276-298: what `single_file` does before writing. -/
def readSingle (env : Env) (config : Config) (path : Str) (w : Cache.World) : Res ObjectInfo × Cache.World :=
  match getFilename path with
  | .ok filename =>
    let r := getFromId env config path filename w
    match r.1 with
    | .ok buf =>
      match prepare env config with
      | .ok (mapping, arch) =>
        getObjectInfo env buf path filename mapping arch config.symbolServer config.emitInlines r.2
      | .err m => (.err m, r.2)
      | .panic => (.panic, r.2)
    | .err m => (.err m, r.2)
    | .panic => (.panic, r.2)
  | .err m => (.err m, w)
  | .panic => (.panic, w)

/-- src/dumper.rs:276-300 `single_file`. -/
def singleFile (env : Env) (extra : Option (List Str)) (config : Config) (path : Str) (w : Cache.World) (out : Output.World) :
    Res Unit × Cache.World × Output.World :=
  let r := readSingle env config path w
  match r.1 with
  | .ok info =>
    let s := store env.io extra config.output config.checkCfi info out
    (s.1, r.2, s.2)
  | .err m => (.err m, r.2, out)
  | .panic => (.panic, r.2, out)

end WinHost
end DumpSyms
