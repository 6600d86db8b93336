import Verif.Spec.WinInputs
import Verif.Spec.Crash
/-!
# What makes a run on one file crash on Windows

As `Verif.Spec.Crash`, with the paths of Windows.  Of the model only the descriptions of the surroundings, the options and the object files are used.
-/
namespace DumpSyms
namespace WinHost
open Cache (Net World Server Job Refused CannotAsk)
open Dumper (Env Config seenPe)

/-- What is at the path, if anything, cannot be read. -/
def CannotRead (cab : Cab) (d : Disk) (path : Str) : Prop := ∀ b, ¬ PathHolds cab d path b

/-- A search for a file crashes: the cached file cannot be read, a server cannot be asked, the file sent cannot be put in the cache, or
the file sent is a cabinet that does not hold it. -/
inductive SearchCrash (net : Net) (name id : Str) (ss : List Server) (w : World) : Prop
  | cached (path : Str) : FirstCached w.disk ss name id path → CannotRead net.cab w.disk path → SearchCrash net name id ss w
  | ask (s : Server) : NotCached w.disk ss name id → s ∈ ss → CannotAsk net.validUrl s.server name id → SearchCrash net name id ss w
  | full (jobs js : List Job) (j : Job) (status : Nat) (raw : Bytes) (dir : Str) : NotCached w.disk ss name id →
      AskedAll net.validUrl name id ss jobs → net.arrivals jobs = j :: js → net.get j.url = some (status, raw) → ¬ Refused raw →
      j.cache = some (dir ++ '\\' :: name) → (w.disk dir = none ∧ net.mkdirs dir = false ∨ net.create (dir ++ '\\' :: name) = false) →
      SearchCrash net name id ss w
  | cabinet (jobs js : List Job) (j : Job) (status : Nat) (raw : Bytes) : NotCached w.disk ss name id →
      AskedAll net.validUrl name id ss jobs → net.arrivals jobs = j :: js → net.get j.url = some (status, raw) → ¬ Refused raw →
      (∀ b, ¬ FileHolds net.cab name raw b) → SearchCrash net name id ss w

/-- No symbol path is given, and the configuration file is there but cannot be read or is not a text. -/
def ConfigCrash (home : Option Str) (d : Disk) (given : Option Str) : Prop :=
  given = none ∧ ∃ h conf node, home = some h ∧ Inside h (str% ".dump_syms\\config") conf ∧ d conf = some node ∧
    ∀ raw, node = .file raw true → Utf8.decode raw = none

/-- The search for the PE of a PDB in the directory `pre`, with the base name `stem` and the debug id `id`, crashes: a file beside it with a name the PE may
have cannot be read. -/
inductive PeCrash (cab : Cab) (parse : WinUtils.ParsePe) (d : Disk) (id pre stem : Str) : Prop
  | mk (before : List (Str × Str)) (ext rep : Str) (after : List (Str × Str)) : WinUtils.peExts = before ++ (ext, rep) :: after →
      (∀ e ∈ before, NoPe cab parse d id (pre ++ (stem ++ '.' :: e.1))) → IsFile d (pre ++ (stem ++ '.' :: ext)) →
      (∀ b, ¬ Holds cab d (pre ++ (stem ++ '.' :: ext)) b) → PeCrash cab parse d id pre stem

/-- The search for the PDB of a PE (whose debug id is `id`) that records the path `r` crashes: the first file found cannot be read, or there is none and the
search in the caches and on the symbol servers crashes. -/
inductive PdbCrash (net : Net) (cwd path id r : Str) (servers : Option (List Server)) (w : World) : Prop
  | onDisk (pre name : Str) (ps before : List Str) (p : Str) (after : List Str) : r = pre ++ name → WinDirPart pre → WinProper name →
      Places cwd path r name ps → ps = before ++ p :: after → (∀ q ∈ before, ¬ IsFile w.disk q) → IsFile w.disk p →
      (∀ b, ¬ Holds net.cab w.disk p b) → PdbCrash net cwd path id r servers w
  | searched (pre name : Str) (ps : List Str) (ss : List Server) : r = pre ++ name → WinDirPart pre → WinProper name →
      Places cwd path r name ps → (∀ q ∈ ps, ¬ IsFile w.disk q) → servers = some ss → SearchCrash net name id ss w →
      PdbCrash net cwd path id r servers w

/-- Getting the contents of the input crashes. -/
inductive ContentsCrash (env : Env) (config : Config) (path filename : Str) (w : World) : Prop
  | byPath : config.debugId = none → config.codeId = none → CannotRead env.net.cab w.disk path → ContentsCrash env config path filename w
  | config (id : Str) : (config.debugId = some id ∨ config.debugId = none ∧ config.codeId = some id) →
      ConfigCrash env.home w.disk config.symbolServer → ContentsCrash env config path filename w
  | byId (id : Str) (ss : List Server) : (config.debugId = some id ∨ config.debugId = none ∧ config.codeId = some id) →
      Configured env.home w.disk config.symbolServer (some ss) → SearchCrash env.net filename id ss w →
      ContentsCrash env config path filename w

/-- Finding out what to dump crashes: the only object of a fat binary cannot be read, a PE cannot be parsed, or a search for the PE of a
PDB or the PDB of a PE crashes.  The file is `filename` in the directory `pre`. -/
inductive InputCrash (env : Env) (buf : Bytes) (pre filename : Str) (symbolServer : Option Str) (w : World) : Prop
  | macho : env.parsers.peek buf = .machO → env.parsers.archive buf = .ok [none] → InputCrash env buf pre filename symbolServer w
  | pdb (o : ObjInput) (stem : Str) : env.parsers.peek buf = .pdb → env.parsers.pdb buf = .ok o → BaseName filename stem →
      PeCrash env.net.cab (seenPe env.parsers) w.disk o.debugId pre stem → InputCrash env buf pre filename symbolServer w
  | pe : env.parsers.peek buf = .pe → env.parsers.pe buf = none → InputCrash env buf pre filename symbolServer w
  | config : env.parsers.peek buf = .pe → ConfigCrash env.home w.disk symbolServer → InputCrash env buf pre filename symbolServer w
  | pePdb (pe : ObjInput) (r : Str) (servers : Option (List Server)) : env.parsers.peek buf = .pe →
      env.parsers.pe buf = some (pe, some r) → Configured env.home w.disk symbolServer servers →
      PdbCrash env.net env.cwd (pre ++ filename) pe.debugId r servers w → InputCrash env buf pre filename symbolServer w

end WinHost
end DumpSyms
