import Verif.Spec.WinSearch
import Verif.Spec.Search
/-!
# What a search of the caches and symbol servers does on Windows

Of the model only the description of the surroundings, the servers and the state are used; what a server is asked for, which answers are
refused and the requests that are recorded are those of `Verif.Spec.Search`.
-/
namespace DumpSyms
namespace WinHost
open Cache (Net World Server Job Asked Refused afterHeads afterGet)

/-- A directory with the parts of a path that is not verbatim (relative, on a drive, a share or a device). -/
def PlainDir (c : Str) : Prop := ∃ raw root s, WinParts c raw root s

/-- Where a cache keeps a file: `BASE\ID\NAME` in it, where `BASE` is the uncompressed name. -/
def Kept (cache name id path : Str) : Prop :=
  ∃ base, StoreDirName name base ∧ Inside cache (base ++ '\\' :: (id ++ '\\' :: name)) path

/-- No cache has the file. -/
def NotCached (d : Disk) (ss : List Server) (name id : Str) : Prop :=
  ∀ s ∈ ss, ∀ c, s.cache = some c → ∀ path, Kept c name id path → d path = none

/-- The first cache that has the file has it at `path`. -/
def FirstCached (d : Disk) (ss : List Server) (name id path : Str) : Prop :=
  ∃ before s after c, ss = before ++ s :: after ∧ NotCached d before name id ∧ s.cache = some c ∧ Kept c name id path ∧
    (d path).isSome = true

/-- The addresses all servers are asked for, in order, each with the place for the file in the server's cache. -/
inductive AskedAll (valid : Str → Bool) (name id : Str) : List Server → List Job → Prop
  | nil : AskedAll valid name id [] []
  | cons (s : Server) (ss : List Server) (urls : List Str) (place : Option Str) (rest : List Job) :
      Asked s.server name id urls → (∀ u ∈ urls, valid u = true) →
      (s.cache = none → place = none) → (∀ c, s.cache = some c → ∃ p, Kept c name id p ∧ place = some p) →
      AskedAll valid name id ss rest → AskedAll valid name id (s :: ss) (urls.map (fun u => ⟨place, u⟩) ++ rest)

/-- What is read from a path: what the file there holds, or what the bundle there holds. -/
inductive PathHolds (cab : Cab) (d : Disk) (path : Str) (b : Bytes) : Prop
  | file : Holds cab d path b → PathHolds cab d path b
  | bundle (es : List Str) : d path = some (.dir es) → BundleHolds cab d path b → PathHolds cab d path b

/-- `Search net name id servers w x w'`: searching a file gives `x` and leaves the state `w'`.  The server that answers first is asked
to send the file. -/
inductive Search (net : Net) (name id : Str) : Option (List Server) → World → Option Bytes → World → Prop
  | noName (ss : Option (List Server)) (w : World) : name = [] → Search net name id ss w none w
  | noServers (w : World) : Search net name id none w none w
  | cached (ss : List Server) (w : World) (path : Str) (b : Bytes) : name ≠ [] → FirstCached w.disk ss name id path →
      PathHolds net.cab w.disk path b → Search net name id (some ss) w (some b) w
  | nowhere (ss : List Server) (w : World) (jobs : List Job) : name ≠ [] → NotCached w.disk ss name id →
      AskedAll net.validUrl name id ss jobs → net.arrivals jobs = [] → Search net name id (some ss) w none (afterHeads w jobs)
  | failed (ss : List Server) (w : World) (jobs : List Job) (j : Job) (js : List Job) : name ≠ [] →
      NotCached w.disk ss name id → AskedAll net.validUrl name id ss jobs → net.arrivals jobs = j :: js → net.get j.url = none →
      Search net name id (some ss) w none (afterGet w jobs j)
  | refused (ss : List Server) (w : World) (jobs : List Job) (j : Job) (js : List Job) (status : Nat) (raw : Bytes) : name ≠ [] →
      NotCached w.disk ss name id → AskedAll net.validUrl name id ss jobs → net.arrivals jobs = j :: js →
      net.get j.url = some (status, raw) → Refused raw → Search net name id (some ss) w none (afterGet w jobs j)
  | fetched (ss : List Server) (w : World) (jobs : List Job) (j : Job) (js : List Job) (status : Nat) (raw b : Bytes) : name ≠ [] →
      NotCached w.disk ss name id → AskedAll net.validUrl name id ss jobs → net.arrivals jobs = j :: js →
      net.get j.url = some (status, raw) → ¬ Refused raw → j.cache = none → FileHolds net.cab name raw b →
      Search net name id (some ss) w (some b) (afterGet w jobs j)
  | stored (ss : List Server) (w : World) (jobs : List Job) (j : Job) (js : List Job) (status : Nat) (raw b : Bytes) (dir : Str) :
      name ≠ [] → NotCached w.disk ss name id → AskedAll net.validUrl name id ss jobs → net.arrivals jobs = j :: js →
      net.get j.url = some (status, raw) → ¬ Refused raw → j.cache = some (dir ++ '\\' :: name) →
      ((w.disk dir).isSome = true ∨ net.mkdirs dir = true) → net.create (dir ++ '\\' :: name) = true → FileHolds net.cab name raw b →
      Search net name id (some ss) w (some b) { afterGet w jobs j with disk := w.disk.write (dir ++ '\\' :: name) raw }

/-- The PDB (its contents and name) that goes with a PE at `path` with the debug id `id` and the given recorded path, and the state after
looking for it. -/
inductive PdbFor (net : Net) (cwd path id : Str) (servers : Option (List Server)) (w : World) :
    Option Str → Option (Bytes × Str) → World → Prop
  | unnamed : PdbFor net cwd path id servers w none none w
  | noFile (r : Str) : WinPath.fileName r = none → PdbFor net cwd path id servers w (some r) none w
  | onDisk (pre name : Str) (ps before : List Str) (p : Str) (after : List Str) (b : Bytes) :
      WinDirPart pre → WinProper name → Places cwd path (pre ++ name) name ps → ps = before ++ p :: after →
      (∀ q ∈ before, ¬ IsFile w.disk q) → IsFile w.disk p → Holds net.cab w.disk p b →
      PdbFor net cwd path id servers w (some (pre ++ name)) (some (b, name)) w
  | searched (pre name : Str) (ps : List Str) (x : Option Bytes) (w' : World) :
      WinDirPart pre → WinProper name → Places cwd path (pre ++ name) name ps → (∀ q ∈ ps, ¬ IsFile w.disk q) →
      Search net name id servers w x w' → PdbFor net cwd path id servers w (some (pre ++ name)) (x.map (·, name)) w'

/-- The servers of a run: those of the symbol path given, or else of the configuration file. -/
inductive Configured (home : Option Str) (d : Disk) : Option Str → Option (List Server) → Prop
  | given (s : Str) (l : Option (List Server)) : Cache.ServersIn home s l → Configured home d (some s) l
  | noHome : home = none → Configured home d none none
  | noConfig (h conf : Str) : home = some h → Inside h (str% ".dump_syms\\config") conf → d conf = none → Configured home d none none
  | config (h conf : Str) (raw : Bytes) (s : Str) (l : Option (List Server)) : home = some h → Inside h (str% ".dump_syms\\config") conf →
      d conf = some (.file raw true) → Utf8.decode raw = some s → Cache.ServersIn home s l → Configured home d none l

end WinHost
end DumpSyms
