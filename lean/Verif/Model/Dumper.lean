import Verif.Model.ObjectInfo
import Verif.Model.Mapping
import Verif.Model.WinUtils
/-!
# Model of the single-file part of src/dumper.rs, of src/linux.rs, src/mac.rs and of the non-test part of src/windows/pdb.rs

The parsers of the crate `symbolic` are parameters (`Parsers`).  A debug id is identified with its Breakpad text and an
architecture with its name.  Reading comes before writing, so the disk that is read and searched (`Cache.World`) and the
destinations that are written (`Output.World`) are kept apart.  Simplification: the feature `http` is on.
-/
namespace DumpSyms
namespace Dumper

/-- `symbolic::debuginfo::peek` and the parsers.  `elf` is `Object::parse`, `pdb` is `PdbObject::parse`; `pe` is `PeObject::parse`,
giving also `debug_file_name()`; `archive` is `Archive::parse` followed by `objects()` (`none`: an object that cannot be
read); `arch` is `Arch::from_str`. -/
structure Parsers where
  peek : Bytes → Format
  elf : Bytes → Except Str ObjInput
  pdb : Bytes → Except Str ObjInput
  pe : Bytes → Option (ObjInput × Option Str)
  archive : Bytes → Except Str (List (Option ObjInput))
  arch : Str → Option Str

/-- The surroundings of a run: the operating system dump_syms was built for, `fs::canonicalize`, the demangler, the detection of
languages, the unstable sort, the current directory and the home directory. -/
structure Env where
  os : TargetOs
  canon : Str → Option Str
  dm : Demangler
  detect : Str → Language
  us : List IRange64 → List IRange64
  cwd : Str
  home : Option Str
  net : Cache.Net
  map : Mapping.MapEnv
  parsers : Parsers
  io : Output.IoEnv

/-- The answers of a path mapping (src/source.rs:112-122: no mapping and errors alike give `none`).  The cache of answers is left out: it does not
change them (`C37`). -/
def mappingFn (env : Env) : Option (List Mapping.Generator) → Str → Option Str
  | none, _ => none
  | some gens, p =>
    match Mapping.firstAnswer env.map p (Mapping.fileStrOf env.map p) gens with
    | .ok r => r
    | _ => none

/-- Whether asking the path mapping panics (src/mapping.rs:295-336): a generator before the first answer panics. -/
def mappingPanics (env : Env) : Option (List Mapping.Generator) → Str → Bool
  | none, _ => false
  | some gens, p =>
    match Mapping.firstAnswer env.map p (Mapping.fileStrOf env.map p) gens with
    | .panic => true
    | _ => false

/-- src/object_info.rs:119-124: what the collection of an object depends on. -/
def cenv (env : Env) (platform : Platform) (mapping : Option (List Mapping.Generator)) (o : ObjInput) : CEnv where
  src := { platform, canonicalize := ObjectInfo.canonicalize env.os platform o, canon := env.canon,
           mapping := mappingFn env mapping, mapPanics := mappingPanics env mapping }
  dm := env.dm
  detect := env.detect
  us := env.us

/-- `ObjectInfo::from_object` (src/object_info.rs:104-183) called with a mapping. -/
def fromObject (env : Env) (o : ObjInput) (fileName : Str) (pe : Option ObjInput) (peName : Option Str)
    (platform : Platform) (mapping : Option (List Mapping.Generator)) (inlines : Bool) : Res ObjectInfo :=
  ObjectInfo.fromObject (cenv env platform mapping o) inlines platform o fileName pe peName

/-- src/linux.rs:15-32 `ObjectInfo::from_elf`. -/
def fromElf (env : Env) (buf : Bytes) (fileName : Str) (platform : Platform)
    (mapping : Option (List Mapping.Generator)) (inlines : Bool) : Res ObjectInfo :=
  match env.parsers.elf buf with
  | .error m => .err m
  | .ok o => fromObject env o fileName none none platform mapping inlines

/-- src/mac.rs:26-34: the object chosen in an archive. -/
def selectObject (arch : Str) (objects : List (Option ObjInput)) : Res (Option ObjInput) :=
  match objects with
  | [none] => .panic
  | [some o] => .ok (some o)
  | objects => .ok ((objects.filterMap id).find? fun o => o.arch = arch)

/-- src/mac.rs:16-53 `ObjectInfo::from_macho`. -/
def fromMacho (env : Env) (buf : Bytes) (fileName arch : Str) (mapping : Option (List Mapping.Generator))
    (inlines : Bool) : Res ObjectInfo :=
  match env.parsers.archive buf with
  | .error m => .err m
  | .ok objects => do
    match ← selectObject arch objects with
    | some o => fromObject env o fileName none none .mac mapping inlines
    | none =>
      .err (str% "Cannot find a valid object for architecture " ++ arch ++ str% " in file " ++ fileName)

/-- src/mac.rs:57-71 `print_macho_architectures`: the text printed. -/
def machoArchitectures (parsers : Parsers) (buf : Bytes) (fileName : Str) : Res Str :=
  match parsers.archive buf with
  | .error m => .err m
  | .ok objects =>
    if objects.any Option.isNone then .panic
    else
      let archs := (objects.filterMap id).map (·.arch)
      .ok (fileName ++ str% " contains the following architecture" ++ (if archs.length = 1 then [] else str% "s") ++
        str% ":\n" ++ List.intercalate (str% ", ") archs ++ str% "\n")

/-- src/windows/pdb.rs:15-35 `ObjectInfo::from_pdb`. -/
def fromPdb (env : Env) (pdb : ObjInput) (pdbName : Str) (peName : Option Str) (pe : Option ObjInput)
    (mapping : Option (List Mapping.Generator)) (inlines : Bool) : Res ObjectInfo :=
  fromObject env pdb pdbName pe peName .win mapping inlines

/-- src/windows/pdb.rs:53-56 `win_path_file_name`: what follows the last backslash. -/
def winPathFileName (s : Str) : Str := (s.reverse.takeWhile (· != '\\')).reverse

/-- src/windows/pdb.rs:37-50 `ObjectInfo::from_pe`. -/
def fromPe (env : Env) (peName : Str) (pe : ObjInput) (debugFileName : Option Str) : Res ObjectInfo :=
  fromObject env pe (winPathFileName (debugFileName.getD peName)) none (some peName) .win none false

/-- The parser of PE files as `windows/utils.rs` uses it. -/
def parsePe (parsers : Parsers) : WinUtils.ParsePe := fun buf =>
  (parsers.pe buf).map fun x => { debugId := x.1.debugId, debugFileName := x.2 }

/-- src/dumper.rs:116-139 `get_pdb_object_info`. -/
def getPdbObjectInfo (env : Env) (buf : Bytes) (path filename : Str) (mapping : Option (List Mapping.Generator))
    (inlines : Bool) (d : Disk) : Res ObjectInfo :=
  match env.parsers.pdb buf with
  | .error m => .err m
  | .ok pdb => do
    match ← WinUtils.findPeForPdb env.net.cab (parsePe env.parsers) d path pdb.debugId with
    | some (peName, peBuf) =>
      match env.parsers.pe peBuf with
      | some (pe, _) => fromPdb env pdb filename (some peName) (some pe) mapping inlines
      | none => .panic
    | none => fromPdb env pdb filename none none mapping inlines

/-- src/dumper.rs:141-167 `get_pe_pdb_object_info`. -/
def getPePdbObjectInfo (env : Env) (buf : Bytes) (path filename : Str) (mapping : Option (List Mapping.Generator))
    (symbolServer : Option Str) (inlines : Bool) (w : Cache.World) : Res ObjectInfo × Cache.World :=
  match Cache.getSymServers env.home w.disk symbolServer with
  | .ok servers =>
    let r := WinUtils.getPePdbBuf env.net (parsePe env.parsers) env.cwd path buf servers w
    match r.1 with
    | .ok (some (_, pdbBuf, pdbName)) =>
      match env.parsers.pdb pdbBuf with
      | .error m => (.err m, r.2)
      | .ok pdb =>
        (fromPdb env pdb pdbName (some filename) ((env.parsers.pe buf).map (·.1)) mapping inlines, r.2)
    | .ok none => (.err (str% "No pdb file found"), r.2)
    | .err m => (.err m, r.2)
    | .panic => (.panic, r.2)
  | .err m => (.err m, w)
  | .panic => (.panic, w)

/-- src/dumper.rs:181-186 `get_pe_object_info`. -/
def getPeObjectInfo (env : Env) (buf : Bytes) (filename : Str) : Res ObjectInfo :=
  match env.parsers.pe buf with
  | none => .panic
  | some (pe, debugFileName) => fromPe env filename pe debugFileName

/-- src/dumper.rs:302-337 `get_object_info`. -/
def getObjectInfo (env : Env) (buf : Bytes) (path filename : Str) (mapping : Option (List Mapping.Generator)) (arch : Str)
    (symbolServer : Option Str) (inlines : Bool) (w : Cache.World) : Res ObjectInfo × Cache.World :=
  match env.parsers.peek buf with
  | .elf => (fromElf env buf filename .linux mapping inlines, w)
  | .pdb => (getPdbObjectInfo env buf path filename mapping inlines w.disk, w)
  | .pe =>
    let r := getPePdbObjectInfo env buf path filename mapping symbolServer inlines w
    match r.1 with
    | .ok info => (.ok info, r.2)
    | .err _ => (getPeObjectInfo env buf filename, r.2)
    | .panic => (.panic, r.2)
  | .machO => (fromMacho env buf filename arch mapping inlines, w)
  | .other => (.err (str% "Unknown file format"), w)

/-- src/dumper.rs:77-90 `struct Config`. -/
structure Config where
  output : Output.Out
  symbolServer : Option Str
  debugId : Option Str
  codeId : Option Str
  arch : Str
  numJobs : Nat
  checkCfi : Bool
  emitInlines : Bool
  mappingVar : Option (List Str)
  mappingSrc : Option (List Str)
  mappingDest : Option (List Str)
  mappingFile : Option Str

/-- src/dumper.rs:248-265 `get_from_id`.  (The file name it gives back is the one given.) -/
def getFromId (env : Env) (config : Config) (path filename : Str) (w : Cache.World) : Res Bytes × Cache.World :=
  match config.debugId.or config.codeId with
  | some id =>
    match Cache.getSymServers env.home w.disk config.symbolServer with
    | .ok servers =>
      let r := Cache.searchFile env.net filename id servers w
      match r.1 with
      | .ok (some buf) => (.ok buf, r.2)
      | .ok none => (.err (str% "Impossible to get file " ++ filename ++ str% " with id " ++ id), r.2)
      | .err m => (.err m, r.2)
      | .panic => (.panic, r.2)
    | .err m => (.err m, w)
    | .panic => (.panic, w)
  | none => (Files.readFile env.net.cab w.disk path, w)

/-- src/dumper.rs:282-289 and 454-461: the mappings and the architecture of a configuration. -/
def prepare (env : Env) (config : Config) : Res (Option (List Mapping.Generator) × Str) := do
  let mapping ← Mapping.new env.map config.mappingVar config.mappingSrc config.mappingDest config.mappingFile
  match env.parsers.arch config.arch with
  | some arch => .ok (mapping, arch)
  | none => .err (str% "arch")

/-- src/dumper.rs:276-298: what `single_file` does before writing. -/
def readSingle (env : Env) (config : Config) (path : Str) (w : Cache.World) : Res ObjectInfo × Cache.World :=
  match Utils.getFilename path with
  | .ok filename =>
    let r := getFromId env config path filename w
    match r.1 with
    | .ok buf =>
      match prepare env config with
      | .ok (mapping, arch) =>
        getObjectInfo env buf path filename mapping arch config.symbolServer config.emitInlines r.2
      | .err m => (.err m, r.2)
      | .panic => (.panic, r.2)
    | .err m => (.err m, r.2)
    | .panic => (.panic, r.2)
  | .err m => (.err m, w)
  | .panic => (.panic, w)

/-- src/dumper.rs:276-300 `single_file`. -/
def singleFile (env : Env) (extra : Option (List Str)) (config : Config) (path : Str) (w : Cache.World) (out : Output.World) :
    Res Unit × Cache.World × Output.World :=
  let r := readSingle env config path w
  match r.1 with
  | .ok info =>
    let s := Output.store env.io extra config.output config.checkCfi info out
    (s.1, r.2, s.2)
  | .err m => (.err m, r.2, out)
  | .panic => (.panic, r.2, out)

/-- src/dumper.rs:410-417: what a worker does with an input of a multi-file run (`Threads.Env.parse`). -/
def parseInput (env : Env) (config : Config) (mapping : Option (List Mapping.Generator)) (arch path : Str) (w : Cache.World) :
    Res ObjectInfo × Cache.World :=
  match Utils.getFilename path with
  | .ok filename =>
    match Files.readFile env.net.cab w.disk path with
    | .ok buf => getObjectInfo env buf path filename mapping arch none config.emitInlines w
    | .err m => (.err m, w)
    | .panic => (.panic, w)
  | .err m => (.err m, w)
  | .panic => (.panic, w)

end Dumper
end DumpSyms
