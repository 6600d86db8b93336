import Verif.Spec.Inputs
import Verif.Spec.Rules
import Verif.Spec.Object
import Verif.Spec.Decorated
import Verif.Model.Run
/-!
# What makes a run on one file crash

A crash is a panic of the Rust program, which ends it with status 101 (an error is reported and ends it with status 1).  Of the model
only the descriptions of the surroundings, the options and the object files are used.
-/
namespace DumpSyms

/-- What is at the path, if anything, cannot be read. -/
def CannotRead (cab : Cab) (d : Disk) (path : Str) : Prop := ∀ b, ¬ PathHolds cab d path b

namespace Cache

/-- A server cannot be asked: an address is not a URL, or the name ends with a character that takes several bytes (the
name of the compressed file is made by cutting a byte). -/
inductive CannotAsk (valid : Str → Bool) (server name id : Str) : Prop
  | url : valid (server ++ '/' :: name ++ '/' :: id ++ '/' :: name) = false → CannotAsk valid server name id
  | packedUrl (stem : Str) (c : Char) : name = stem ++ [c] → c ≠ '_' →
      valid (server ++ '/' :: name ++ '/' :: id ++ '/' :: (stem ++ ['_'])) = false → CannotAsk valid server name id
  | multibyte (stem : Str) (c : Char) : name = stem ++ [c] → 128 ≤ c.toNat → CannotAsk valid server name id

/-- A search for a file crashes: the cached file cannot be read, a server cannot be asked, the file sent cannot be put in the cache, or
the file sent is a cabinet that does not hold it. -/
inductive SearchCrash (net : Net) (name id : Str) (ss : List Server) (w : World) : Prop
  | cached (path : Str) : FirstCached w.disk ss name id path → CannotRead net.cab w.disk path → SearchCrash net name id ss w
  | ask (s : Server) : NotCached w.disk ss name id → s ∈ ss → CannotAsk net.validUrl s.server name id → SearchCrash net name id ss w
  | full (jobs js : List Job) (j : Job) (status : Nat) (raw : Bytes) (dir : Str) : NotCached w.disk ss name id →
      AskedAll net.validUrl name id ss jobs → net.arrivals jobs = j :: js → net.get j.url = some (status, raw) → ¬ Refused raw →
      j.cache = some (dir ++ '/' :: name) → (w.disk dir = none ∧ net.mkdirs dir = false ∨ net.create (dir ++ '/' :: name) = false) →
      SearchCrash net name id ss w
  | cabinet (jobs js : List Job) (j : Job) (status : Nat) (raw : Bytes) : NotCached w.disk ss name id →
      AskedAll net.validUrl name id ss jobs → net.arrivals jobs = j :: js → net.get j.url = some (status, raw) → ¬ Refused raw →
      (∀ b, ¬ FileHolds net.cab name raw b) → SearchCrash net name id ss w

/-- No symbol path is given, and the configuration file is there but cannot be read or is not a text. -/
def ConfigCrash (home : Option Str) (d : Disk) (given : Option Str) : Prop :=
  given = none ∧ ∃ h node, home = some h ∧ d (Inside (Inside h (str% ".dump_syms")) (str% "config")) = some node ∧
    ∀ raw, node = .file raw true → Utf8.decode raw = none

end Cache

namespace WinUtils

/-- The search for the PE of a PDB crashes: a file beside it with a name the PE may have cannot be read. -/
inductive PeCrash (cab : Cab) (parse : ParsePe) (d : Disk) (path id : Str) : Prop
  | mk (pre name stem : Str) (before : List (Str × Str)) (ext rep : Str) (after : List (Str × Str)) :
      path = pre ++ name → DirPart pre → ProperComp name → BaseName name stem → peExts = before ++ (ext, rep) :: after →
      (∀ e ∈ before, NoPe cab parse d id (pre ++ (stem ++ '.' :: e.1))) → IsFile d (pre ++ (stem ++ '.' :: ext)) →
      CannotRead cab d (pre ++ (stem ++ '.' :: ext)) → PeCrash cab parse d path id

/-- The search for the PDB of a PE (whose debug id is `id`) that records the path `r` crashes: the first file found cannot be read, or there is none and the search in the
caches and on the symbol servers crashes. -/
inductive PdbCrash (net : Cache.Net) (cwd path id r : Str) (servers : Option (List Cache.Server)) (w : Cache.World) : Prop
  | onDisk (name : Str) (ps before : List Str) (p : Str) (after : List Str) :
      Path.fileName (slashes r) = some name → Places cwd path (slashes r) name ps → ps = before ++ p :: after →
      (∀ q ∈ before, ¬ IsFile w.disk q) → IsFile w.disk p → CannotRead net.cab w.disk p → PdbCrash net cwd path id r servers w
  | searched (name : Str) (ps : List Str) (ss : List Cache.Server) :
      Path.fileName (slashes r) = some name → Places cwd path (slashes r) name ps → (∀ q ∈ ps, ¬ IsFile w.disk q) →
      servers = some ss → Cache.SearchCrash net name id ss w → PdbCrash net cwd path id r servers w

end WinUtils

namespace Dumper

/-- Getting the contents of the input crashes. -/
inductive ContentsCrash (env : Env) (config : Config) (path filename : Str) (w : Cache.World) : Prop
  | byPath : config.debugId = none → config.codeId = none → CannotRead env.net.cab w.disk path → ContentsCrash env config path filename w
  | config (id : Str) : (config.debugId = some id ∨ config.debugId = none ∧ config.codeId = some id) →
      Cache.ConfigCrash env.home w.disk config.symbolServer → ContentsCrash env config path filename w
  | byId (id : Str) (ss : List Cache.Server) : (config.debugId = some id ∨ config.debugId = none ∧ config.codeId = some id) →
      Cache.Configured env.home w.disk config.symbolServer (some ss) → Cache.SearchCrash env.net filename id ss w →
      ContentsCrash env config path filename w

/-- Making the path mappings crashes: the variables are well formed, and the mapping file is there but cannot be read. -/
def MappingCrash (env : Env) (config : Config) : Prop :=
  (∀ v ∈ config.mappingVar.getD [], '=' ∈ v) ∧ ∃ f, config.mappingFile = some f ∧ env.map.read f = .panic

/-- Finding out what to dump crashes: the only object of a fat binary cannot be read, a PE cannot be parsed, or a search for the PE of a
PDB or the PDB of a PE crashes. -/
inductive InputCrash (env : Env) (buf : Bytes) (path : Str) (symbolServer : Option Str) (w : Cache.World) : Prop
  | macho : env.parsers.peek buf = .machO → env.parsers.archive buf = .ok [none] → InputCrash env buf path symbolServer w
  | pdb (o : ObjInput) : env.parsers.peek buf = .pdb → env.parsers.pdb buf = .ok o →
      WinUtils.PeCrash env.net.cab (seenPe env.parsers) w.disk path o.debugId → InputCrash env buf path symbolServer w
  | pe : env.parsers.peek buf = .pe → env.parsers.pe buf = none → InputCrash env buf path symbolServer w
  | config : env.parsers.peek buf = .pe → Cache.ConfigCrash env.home w.disk symbolServer → InputCrash env buf path symbolServer w
  | pePdb (pe : ObjInput) (r : Str) (servers : Option (List Cache.Server)) : env.parsers.peek buf = .pe →
      env.parsers.pe buf = some (pe, some r) → Cache.Configured env.home w.disk symbolServer servers →
      WinUtils.PdbCrash env.net env.cwd path pe.debugId r servers w → InputCrash env buf path symbolServer w

/-- A name that the parser of decorated names crashes on (C42): it starts with a character that is not ASCII, and is not a vectorcall
name or one with a colon or parenthesis. -/
def BadName (s : Str) : Prop := (∃ c r, s = c :: r ∧ 128 ≤ c.toNat) ∧ (':' ∉ s ∧ '(' ∉ s) ∧ ¬ Vectorcall s

/-- What in an object can make its dump crash: a source path whose mapping needs the digest of a file that cannot be read (C79), a bad
public name in a Windows file (C42), embedded debug data outside the file (C76). -/
inductive ObjectCrash (env : Env) (rules : List Mapping.Rule) (platform : Platform) (o : ObjInput) : Prop
  | mapping (fs : List (Option Func)) (f : Func) (c : ByteSlice) (i : FileInfo) (p : Str) : o.functions = .ok fs → some f ∈ fs → f.Refers c i →
      RecordedPath platform (OnHost env.os platform ∧ ¬ (o.format = .pe ∧ o.hasDebugInfo = true)) env.canon c i p →
      Mapping.Unreadable env.map rules p → ObjectCrash env rules platform o
  | name (ps : List Collector.Public) (p : Collector.Public) (n : Str) : platform = .win → (ps = o.publics ∨ o.Embeds ps) → p ∈ ps →
      p.name = some n → BadName n → ObjectCrash env rules platform o
  | embedded (h : Section) : o.EmbeddedIn h → o.data.length < h.offset + h.size → ObjectCrash env rules platform o

end Dumper
end DumpSyms
