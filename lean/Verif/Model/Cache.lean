import Verif.Model.Files
import Verif.Model.Output
/-!
# Model of src/cache.rs

The network, the home directory, URL parsing and the failures of the file system are parameters (`Net`).  The state (`World`)
is the disk and the list of requests made so far.
-/
namespace DumpSyms
namespace Cache

/-- src/cache.rs:19 `DEFAULT_STORE`. -/
def defaultStore : Str := str% "https://msdl.microsoft.com/download/symbols"

/-- src/cache.rs:22-26 `struct SymbolServer`. -/
structure Server where
  cache : Option Str
  server : Str
  deriving DecidableEq, Repr

/-- src/cache.rs:28-32 `struct Job`. -/
structure Job where
  cache : Option Str
  url : Str
  deriving DecidableEq, Repr

/-- A request sent to a server. -/
inductive Request where
  | head (url : Str)
  | get (url : Str)
  deriving DecidableEq, Repr

/-- The disk, and the requests made so far. -/
structure World where
  disk : Disk
  log : List Request

/-- How the surroundings behave.  `validUrl` is `Url::parse(..).is_ok()`; `arrivals` gives, among the jobs queried with HEAD, those
answered with status 200, in the order in which the answers are recorded; `get` is the answer to a GET (status and body;
`none` when the request fails or the body cannot be read); `mkdirs`, `create`, `room` and `capacity` are as in
`Output.IoEnv`; `cab` opens cabinets. -/
structure Net where
  validUrl : Str → Bool
  arrivals : List Job → List Job
  get : Str → Option (Nat × Bytes)
  mkdirs : Str → Bool
  create : Str → Bool
  room : Str → Nat
  capacity : Nat
  cab : Cab

/-- src/cache.rs:41-51 `correct_path`; `home` is `home_dir()`.  Simplification: the home directory is valid Unicode. -/
def correctPath (home : Option Str) (path : Str) : Str :=
  match home with
  | none => path
  | some h =>
    match path with
    | '~' :: r => h ++ r
    | _ => path

/-- src/cache.rs:53-76 `parse_srv`. -/
def parseSrv (home : Option Str) (path : Str) : Option Server :=
  let parts := (splitOn (· == '*') path).map trim
  match parts with
  | [] => none
  | p0 :: rest =>
    if toLower p0 ≠ str% "srv" then none
    else
      match rest with
      | [] => some { cache := none, server := defaultStore }
      | [p1] => some { cache := none, server := p1 }
      | [p1, p2] => some { cache := some (correctPath home p1), server := p2 }
      | _ => none

/-- src/cache.rs:78-80 `parse_sympath`. -/
def parseSympath (home : Option Str) (path : Str) : List Server :=
  (splitOn (fun c => c == ';' || c == '\n') path).filterMap (parseSrv home)

/-- src/cache.rs:105-112 `read_config_from_str`. -/
def readConfigFromStr (home : Option Str) (s : Str) : Option (List Server) :=
  let servers := parseSympath home s
  if servers = [] then none else some servers

/-- src/cache.rs:82-103 `read_config`: the file `.dump_syms/config` of the home directory.  Panics when it cannot be read or is
not UTF-8. -/
def readConfig (home : Option Str) (d : Disk) : Res (Option (List Server)) :=
  match home with
  | none => .ok none
  | some h =>
    let conf := Path.push (Path.push h (str% ".dump_syms")) (str% "config")
    match d conf with
    | none => .ok none
    | some (.file b true) =>
      match Utf8.decode b with
      | some s => .ok (readConfigFromStr home s)
      | none => .panic
    | some _ => .panic

/-- src/cache.rs:114-116 `get_sym_servers`. -/
def getSymServers (home : Option Str) (d : Disk) : Option Str → Res (Option (List Server))
  | none => readConfig home d
  | some s => .ok (readConfigFromStr home s)

/-- The text refused by `copy_in_cache`. -/
def notFound : Bytes := Utf8.encode (str% "Symbol Not Found")

/-- src/cache.rs:128-137: the directory of the file is there or can be created. -/
def dirOk (net : Net) (p : Str) (d : Disk) : Bool :=
  match Path.parent p with
  | some parent => d.exists? parent || net.mkdirs parent
  | none => true

/-- src/cache.rs:118-147 `copy_in_cache`.  Whether the data can be used, and the disk afterwards.  A panic is reported together
with the disk as it is then. -/
def copyInCache (net : Net) (path : Option Str) (data : Bytes) (d : Disk) : Res Bool × Disk :=
  if data.isEmpty || notFound.isPrefixOf data then (.ok false, d)
  else
    match path with
    | none => (.ok true, d)
    | some p =>
      if !dirOk net p d then (.panic, d)
      else if !net.create p then (.panic, d)
      else
        let r := Output.dump (net.room p) net.capacity [data]
        (if r.1 then .ok true else .panic, d.write p r.2)

/-- The path of a file in a cache (src/cache.rs:156, 171). -/
def cachePath (cache base id fileName : Str) : Str := Path.push (Path.push (Path.push cache base) id) fileName

/-- src/cache.rs:149-162 `search_in_cache`. -/
def searchInCache (d : Disk) (servers : List Server) (id base fileName : Str) : Option Str :=
  ((servers.filterMap (·.cache)).map (cachePath · base id fileName)).find? d.exists?

/-- src/cache.rs:34-39 `Job::new`, with the `unwrap_or_else(panic)` of its callers. -/
def Job.new (net : Net) (cache : Option Str) (url : Str) : Res Job :=
  if net.validUrl url then .ok { cache := cache, url := url } else .panic

/-- `&s[..s.len() - 1]` (in bytes): panics when the last character takes several bytes, or on an empty string. -/
def dropLastByte (s : Str) : Res Str :=
  match s.getLast? with
  | none => .panic
  | some c => if c.toNat < 128 then .ok s.dropLast else .panic

/-- `format!("{}/{}/{}/{}", server, file_name, id, last)`. -/
def jobUrl (server fileName id last : Str) : Str := server ++ '/' :: fileName ++ '/' :: id ++ '/' :: last

/-- src/cache.rs:167-192: the jobs of one server. -/
def serverJobs (net : Net) (id base fileName : Str) (s : Server) : Res (List Job) :=
  let path := s.cache.map (cachePath · base id fileName)
  (Job.new net path (jobUrl s.server fileName id fileName)).bind fun job =>
    if fileName.getLast? = some '_' then .ok [job]
    else
      (dropLastByte fileName).bind fun short =>
        (Job.new net path (jobUrl s.server fileName id (short ++ ['_']))).bind fun job2 => .ok [job, job2]

/-- src/cache.rs:164-195 `get_jobs`. -/
def getJobs (net : Net) (id base fileName : Str) : List Server → Res (List Job)
  | [] => .ok []
  | s :: ss =>
    (serverJobs net id base fileName s).bind fun js =>
      (getJobs net id base fileName ss).bind fun rest => .ok (js ++ rest)

/-- src/cache.rs:211-230 `check_data` (with 197-209 `check_if_file_exists`): every job is queried; the first recorded answer wins. -/
def checkData (net : Net) (jobs : List Job) : Option Job := (net.arrivals jobs).head?

/-- src/cache.rs:232-254 `fetch_data`. -/
def fetchData (net : Net) (jobs : List Job) (w : World) : Res (Option Bytes) × World :=
  let w := { w with log := w.log ++ jobs.map (fun j => .head j.url) }
  match checkData net jobs with
  | none => (.ok none, w)
  | some job =>
    let w := { w with log := w.log ++ [.get job.url] }
    match net.get job.url with
    | none => (.ok none, w)
    | some (_, buf) =>
      let r := copyInCache net job.cache buf w.disk
      (r.1.map (fun ok => if ok then some buf else none), { w with disk := r.2 })

/-- src/cache.rs:256-290 `search_file` (the file name given back is always the one given). -/
def searchFile (net : Net) (fileName id : Str) (servers : Option (List Server)) (w : World) : Res (Option Bytes) × World :=
  if fileName = [] then (.ok none, w)
  else
    match servers with
    | none => (.ok none, w)
    | some servers =>
      let base := Utils.getBase fileName
      match searchInCache w.disk servers id base fileName with
      | some path => ((Files.readFile net.cab w.disk path).map some, w)
      | none =>
        match getJobs net id base fileName servers with
        | .ok jobs =>
          let r := fetchData net jobs w
          match r.1 with
          | .ok (some buf) =>
            match Files.readCabinet net.cab buf fileName with
            | .ok (some b) => (.ok (some b), r.2)
            | _ => (.panic, r.2)
          | .ok none => (.ok none, r.2)
          | .err m => (.err m, r.2)
          | .panic => (.panic, r.2)
        | .err m => (.err m, w)
        | .panic => (.panic, w)

/-- The disks a run can leave behind when it is stopped inside `copy_in_cache` (src/cache.rs:139-144: the file is created empty at its
final path and then filled). -/
inductive StoppedDisk (d : Disk) (p : Str) (data : Bytes) : Disk → Prop where
  | before : StoppedDisk d p data d
  | during (k : Nat) : k ≤ data.length → StoppedDisk d p data (d.write p (data.take k))

end Cache
end DumpSyms
