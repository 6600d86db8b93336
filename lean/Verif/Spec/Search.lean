import Verif.Spec.Reading
import Verif.Model.Cache
/-!
# What a search of the caches and symbol servers does

Of the model only the description of the surroundings (`Net`), the servers and the state are used.
-/
namespace DumpSyms
namespace Cache

/-- Where a cache keeps a file: `path` is the file in the directory for its id, in the one for its (uncompressed) name. -/
def Kept (cache name id path : Str) : Prop :=
  ∃ base, StoreDirName name base ∧ path = Inside (Inside (Inside cache base) id) name

/-- No cache has the file. -/
def NotCached (d : Disk) (ss : List Server) (name id : Str) : Prop :=
  ∀ s ∈ ss, ∀ c, s.cache = some c → ∀ path, Kept c name id path → d path = none

/-- The first cache that has the file has it at `path`. -/
def FirstCached (d : Disk) (ss : List Server) (name id path : Str) : Prop :=
  ∃ before s after c, ss = before ++ s :: after ∧ NotCached d before name id ∧ s.cache = some c ∧ Kept c name id path ∧
    (d path).isSome = true

/-- The addresses a server is asked for: that of the file, and that of its compressed form (whose name ends with `_`). -/
inductive Asked (server name id : Str) : List Str → Prop
  | packed : name.getLast? = some '_' → Asked server name id [server ++ '/' :: name ++ '/' :: id ++ '/' :: name]
  | both (stem : Str) (c : Char) : name = stem ++ [c] → c ≠ '_' → c.toNat < 128 →
      Asked server name id [server ++ '/' :: name ++ '/' :: id ++ '/' :: name,
        server ++ '/' :: name ++ '/' :: id ++ '/' :: (stem ++ ['_'])]

/-- The addresses all servers are asked for, in order, each with the place for the file in the server's cache. -/
inductive AskedAll (valid : Str → Bool) (name id : Str) : List Server → List Job → Prop
  | nil : AskedAll valid name id [] []
  | cons (s : Server) (ss : List Server) (urls : List Str) (place : Option Str) (rest : List Job) :
      Asked s.server name id urls → (∀ u ∈ urls, valid u = true) →
      (s.cache = none → place = none) → (∀ c, s.cache = some c → ∃ p, Kept c name id p ∧ place = some p) →
      AskedAll valid name id ss rest → AskedAll valid name id (s :: ss) (urls.map (fun u => ⟨place, u⟩) ++ rest)

/-- An answer that is no file: it is empty or a page saying so. -/
def Refused (raw : Bytes) : Prop := raw = [] ∨ Utf8.encode (str% "Symbol Not Found") <+: raw

/-- The state after the servers have been asked, and after one of them has been asked to send the file. -/
def afterHeads (w : World) (jobs : List Job) : World := { w with log := w.log ++ jobs.map fun j => .head j.url }
def afterGet (w : World) (jobs : List Job) (j : Job) : World :=
  { w with log := w.log ++ (jobs.map fun j => .head j.url) ++ [.get j.url] }

/-- `Search net name id servers w x w'`: searching a file gives `x` and leaves the state `w'`.  The server that answers first is asked
to send the file. -/
inductive Search (net : Net) (name id : Str) : Option (List Server) → World → Option Bytes → World → Prop
  | noName (ss : Option (List Server)) (w : World) : name = [] → Search net name id ss w none w
  | noServers (w : World) : Search net name id none w none w
  | cached (ss : List Server) (w : World) (path : Str) (b : Bytes) : name ≠ [] → FirstCached w.disk ss name id path →
      PathHolds net.cab w.disk path b → Search net name id (some ss) w (some b) w
  | nowhere (ss : List Server) (w : World) (jobs : List Job) : name ≠ [] → NotCached w.disk ss name id →
      AskedAll net.validUrl name id ss jobs → net.arrivals jobs = [] → Search net name id (some ss) w none (afterHeads w jobs)
  | failed (ss : List Server) (w : World) (jobs : List Job) (j : Job) (js : List Job) : name ≠ [] →
      NotCached w.disk ss name id → AskedAll net.validUrl name id ss jobs → net.arrivals jobs = j :: js → net.get j.url = none →
      Search net name id (some ss) w none (afterGet w jobs j)
  | refused (ss : List Server) (w : World) (jobs : List Job) (j : Job) (js : List Job) (status : Nat) (raw : Bytes) : name ≠ [] →
      NotCached w.disk ss name id → AskedAll net.validUrl name id ss jobs → net.arrivals jobs = j :: js →
      net.get j.url = some (status, raw) → Refused raw → Search net name id (some ss) w none (afterGet w jobs j)
  | fetched (ss : List Server) (w : World) (jobs : List Job) (j : Job) (js : List Job) (status : Nat) (raw b : Bytes) : name ≠ [] →
      NotCached w.disk ss name id → AskedAll net.validUrl name id ss jobs → net.arrivals jobs = j :: js →
      net.get j.url = some (status, raw) → ¬ Refused raw → j.cache = none → FileHolds net.cab name raw b →
      Search net name id (some ss) w (some b) (afterGet w jobs j)
  | stored (ss : List Server) (w : World) (jobs : List Job) (j : Job) (js : List Job) (status : Nat) (raw b : Bytes) (dir : Str) :
      name ≠ [] → NotCached w.disk ss name id → AskedAll net.validUrl name id ss jobs → net.arrivals jobs = j :: js →
      net.get j.url = some (status, raw) → ¬ Refused raw → j.cache = some (dir ++ '/' :: name) →
      ((w.disk dir).isSome = true ∨ net.mkdirs dir = true) → net.create (dir ++ '/' :: name) = true → FileHolds net.cab name raw b →
      Search net name id (some ss) w (some b) { afterGet w jobs j with disk := w.disk.write (dir ++ '/' :: name) raw }

end Cache
end DumpSyms
