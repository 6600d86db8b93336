import Verif.Model.WinSearch
import Verif.Model.Cache
/-!
# Model of src/cache.rs, and of the search for the PDB of a PE, built for Windows

The functions of `Verif.Model.Cache` and `Verif.Model.WinUtils` in which paths are joined, with the paths of Windows.  The network, the servers and
the state are the ones of `Verif.Model.Cache`.
-/
namespace DumpSyms
namespace WinHost
open WinPath WinUtils
open Cache (Net World Server Job Request jobUrl dropLastByte checkData readConfigFromStr notFound)

/-- src/cache.rs:82-103 `read_config`: the file `.dump_syms\config` of the home directory. -/
def readConfig (home : Option Str) (d : Disk) : Res (Option (List Server)) :=
  match home with
  | none => .ok none
  | some h =>
    let conf := push (push h (str% ".dump_syms")) (str% "config")
    match d conf with
    | none => .ok none
    | some (.file b true) =>
      match Utf8.decode b with
      | some s => .ok (readConfigFromStr home s)
      | none => .panic
    | some _ => .panic

/-- src/cache.rs:114-116 `get_sym_servers`. -/
def getSymServers (home : Option Str) (d : Disk) : Option Str → Res (Option (List Server))
  | none => readConfig home d
  | some s => .ok (readConfigFromStr home s)

/-- src/cache.rs:128-137: the directory of the file is there or can be created. -/
def dirOk (net : Net) (p : Str) (d : Disk) : Bool :=
  match parent p with
  | some dir => d.exists? dir || net.mkdirs dir
  | none => true

/-- src/cache.rs:118-147 `copy_in_cache`. -/
def copyInCache (net : Net) (path : Option Str) (data : Bytes) (d : Disk) : Res Bool × Disk :=
  if data.isEmpty || notFound.isPrefixOf data then (.ok false, d)
  else
    match path with
    | none => (.ok true, d)
    | some p =>
      if !dirOk net p d then (.panic, d)
      else if !net.create p then (.panic, d)
      else
        let r := Output.dump (net.room p) net.capacity [data]
        (if r.1 then .ok true else .panic, d.write p r.2)

/-- The path of a file in a cache (src/cache.rs:156, 171). -/
def cachePath (cache base id name : Str) : Str := push (push (push cache base) id) name

/-- src/cache.rs:149-162 `search_in_cache`. -/
def searchInCache (d : Disk) (servers : List Server) (id base name : Str) : Option Str :=
  ((servers.filterMap (·.cache)).map (cachePath · base id name)).find? d.exists?

/-- src/cache.rs:167-192: the jobs of one server. -/
def serverJobs (net : Net) (id base name : Str) (s : Server) : Res (List Job) :=
  let path := s.cache.map (cachePath · base id name)
  (Job.new net path (jobUrl s.server name id name)).bind fun job =>
    if name.getLast? = some '_' then .ok [job]
    else
      (dropLastByte name).bind fun short =>
        (Job.new net path (jobUrl s.server name id (short ++ ['_']))).bind fun job2 => .ok [job, job2]

/-- src/cache.rs:164-195 `get_jobs`. -/
def getJobs (net : Net) (id base name : Str) : List Server → Res (List Job)
  | [] => .ok []
  | s :: ss =>
    (serverJobs net id base name s).bind fun js =>
      (getJobs net id base name ss).bind fun rest => .ok (js ++ rest)

/-- src/cache.rs:232-254 `fetch_data`. -/
def fetchData (net : Net) (jobs : List Job) (w : World) : Res (Option Bytes) × World :=
  let w := { w with log := w.log ++ jobs.map (fun j => .head j.url) }
  match checkData net jobs with
  | none => (.ok none, w)
  | some job =>
    let w := { w with log := w.log ++ [.get job.url] }
    match net.get job.url with
    | none => (.ok none, w)
    | some (_, buf) =>
      let r := copyInCache net job.cache buf w.disk
      (r.1.map (fun ok => if ok then some buf else none), { w with disk := r.2 })

/-- src/cache.rs:256-290 `search_file`. -/
def searchFile (net : Net) (name id : Str) (servers : Option (List Server)) (w : World) : Res (Option Bytes) × World :=
  if name = [] then (.ok none, w)
  else
    match servers with
    | none => (.ok none, w)
    | some servers =>
      let base := getBase name
      match searchInCache w.disk servers id base name with
      | some path => ((readFile net.cab w.disk path).map some, w)
      | none =>
        match getJobs net id base name servers with
        | .ok jobs =>
          let r := fetchData net jobs w
          match r.1 with
          | .ok (some buf) =>
            match readCabinet net.cab buf name with
            | .ok (some b) => (.ok (some b), r.2)
            | _ => (.panic, r.2)
          | .ok none => (.ok none, r.2)
          | .err m => (.err m, r.2)
          | .panic => (.panic, r.2)
        | .err m => (.err m, w)
        | .panic => (.panic, w)

/-- src/windows/utils.rs:57-81 `get_pe_pdb_buf`: the PE, the contents of its PDB and the name of the PDB. -/
def getPePdbBuf (net : Net) (parse : ParsePe) (cwd path : Str) (buf : Bytes) (servers : Option (List Server)) (w : World) :
    Res (Option (Pe × Bytes × Str)) × World :=
  match parse buf with
  | none => (.panic, w)
  | some pe =>
    match pe.debugFileName with
    | none => (.ok none, w)
    | some pdbFilename =>
      match osSpecificTryToFindPdb net.cab w.disk cwd path pdbFilename with
      | .ok (pdb, pdbName) =>
        if pdbName = [] then (.ok none, w)
        else
          match pdb with
          | some pdbBuf => (.ok (some (pe, pdbBuf, pdbName)), w)
          | none =>
            let r := searchFile net pdbName pe.debugId servers w
            (r.1.map (fun b => b.map (fun pdbBuf => (pe, pdbBuf, pdbName))), r.2)
      | .err m => (.err m, w)
      | .panic => (.panic, w)

end WinHost
end DumpSyms
