import Verif.Spec.WinCache
import Verif.Spec.Inputs
/-!
# What a file is dumped from on Windows, and where the symbol file goes

As `Verif.Spec.Inputs`, with the paths of Windows.  Of the model only the descriptions of the surroundings and of the configuration are used.
-/
namespace DumpSyms
namespace WinHost
open Dumper (Env Config seenPe)

/-- What a file is dumped from: the object with the debug information, the name the module gets if the object does not have one, the PE
that goes with it and its name, the platform, whether the path mappings and inline information asked for are used, and the state left by
looking for it.  The file is `filename` in the directory `pre`.  A PE is dumped alone when no PDB is found for it, or one that cannot be parsed or whose
functions cannot be listed. -/
inductive DumpedFrom (env : Env) (buf : Bytes) (pre filename arch : Str) (symbolServer : Option Str) (w : Cache.World) :
    ObjInput → Str → Option ObjInput → Option Str → Platform → Bool → Cache.World → Prop where
  | elf (o : ObjInput) (hk : env.parsers.peek buf = .elf) (h : env.parsers.elf buf = .ok o) :
      DumpedFrom env buf pre filename arch symbolServer w o filename none none .linux true w
  | machoOnly (o : ObjInput) (hk : env.parsers.peek buf = .machO) (h : env.parsers.archive buf = .ok [some o]) :
      DumpedFrom env buf pre filename arch symbolServer w o filename none none .mac true w
  | machoOf (o : ObjInput) (before after : List (Option ObjInput)) (hk : env.parsers.peek buf = .machO)
      (h : env.parsers.archive buf = .ok (before ++ some o :: after)) (hs : before ≠ [] ∨ after ≠ []) (ha : o.arch = arch)
      (hb : ∀ x, some x ∈ before → x.arch ≠ arch) :
      DumpedFrom env buf pre filename arch symbolServer w o filename none none .mac true w
  | pdb (o : ObjInput) (stem : Str) (hk : env.parsers.peek buf = .pdb) (h : env.parsers.pdb buf = .ok o) (hb : BaseName filename stem)
      (hf : PeFor env.net.cab (seenPe env.parsers) w.disk o.debugId pre stem none) :
      DumpedFrom env buf pre filename arch symbolServer w o filename none none .win true w
  | pdbPe (o pe : ObjInput) (peBuf : Bytes) (stem peName : Str) (recorded : Option Str) (hk : env.parsers.peek buf = .pdb)
      (h : env.parsers.pdb buf = .ok o) (hb : BaseName filename stem)
      (hf : PeFor env.net.cab (seenPe env.parsers) w.disk o.debugId pre stem (some (peName, peBuf)))
      (hp : env.parsers.pe peBuf = some (pe, recorded)) :
      DumpedFrom env buf pre filename arch symbolServer w o filename (some pe) (some peName) .win true w
  | pePdb (o pe : ObjInput) (pdbBuf : Bytes) (pdbName : Str) (recorded : Option Str) (servers : Option (List Cache.Server))
      (fs : List (Option Func)) (w' : Cache.World) (hk : env.parsers.peek buf = .pe) (hp : env.parsers.pe buf = some (pe, recorded))
      (hs : Configured env.home w.disk symbolServer servers)
      (hf : PdbFor env.net env.cwd (pre ++ filename) pe.debugId servers w recorded (some (pdbBuf, pdbName)) w')
      (h : env.parsers.pdb pdbBuf = .ok o) (hl : o.functions = .ok fs) :
      DumpedFrom env buf pre filename arch symbolServer w o pdbName (some pe) (some filename) .win true w'
  | pe (pe : ObjInput) (name : Str) (recorded : Option Str) (servers : Option (List Cache.Server)) (found : Option (Bytes × Str))
      (w' : Cache.World) (hk : env.parsers.peek buf = .pe) (hp : env.parsers.pe buf = some (pe, recorded))
      (hs : Configured env.home w.disk symbolServer servers)
      (hf : PdbFor env.net env.cwd (pre ++ filename) pe.debugId servers w recorded found w')
      (hno : ∀ b n o fs, found = some (b, n) → env.parsers.pdb b = .ok o → o.functions ≠ .ok fs)
      (hn : AfterLast '\\' (recorded.getD filename) name) :
      DumpedFrom env buf pre filename arch symbolServer w pe name none (some filename) .win false w'

/-- What a run on one file reads: the file at the path, or, if an id is given, what a search for its name and that id finds (the debug id
is preferred).  The state after it. -/
inductive Contents (env : Env) (config : Config) (path filename : Str) (w : Cache.World) : Bytes → Cache.World → Prop
  | byPath (b : Bytes) : config.debugId = none → config.codeId = none → PathHolds env.net.cab w.disk path b →
      Contents env config path filename w b w
  | byId (id : Str) (servers : Option (List Cache.Server)) (b : Bytes) (w' : Cache.World) :
      (config.debugId = some id ∨ config.debugId = none ∧ config.codeId = some id) →
      Configured env.home w.disk config.symbolServer servers → Search env.net filename id servers w (some b) w' →
      Contents env config path filename w b w'

/-- What is assumed of the surroundings of a run: names of directory entries are names Windows allows, answers of symbol servers come from servers that
were asked and fit on the disk, the current directory has a directory beside it, the home directory is not verbatim. -/
structure Sane (env : Env) (d : Disk) : Prop where
  dirs : ∀ q es, d q = some (.dir es) → ∀ e ∈ es, WinProper e
  room : ∀ u st raw p, env.net.get u = some (st, raw) → raw.length ≤ env.net.room p
  arrivals : ∀ js, ∀ j ∈ env.net.arrivals js, j ∈ js
  cwd : ∃ dir, WinDirOf env.cwd dir
  home : ∀ h, env.home = some h → PlainDir h

/-- The caches of the servers configured are not verbatim. -/
def SaneCaches (env : Env) (symbolServer : Option Str) (d : Disk) : Prop :=
  ∀ ss, Configured env.home d symbolServer (some ss) → ∀ s ∈ ss, ∀ c, s.cache = some c → PlainDir c

/-- What is assumed of a file: the debug id of a PE is a name, and the path recorded in it has no last name, or ends in a name Windows allows. -/
def SanePe (env : Env) (buf : Bytes) : Prop :=
  ∀ pe recorded, env.parsers.pe buf = some (pe, recorded) → WinProper pe.debugId ∧ ∀ r, recorded = some r →
    WinPath.fileName r = none ∨ ∃ pre name, r = pre ++ name ∧ WinDirPart pre ∧ WinProper name

/-- The place of the symbol file of a module in a store: `DIR\ID\FILE` in it. -/
def InStore (store name id p : Str) : Prop :=
  ∃ d f, StoreDirName name d ∧ StoreFileName name f ∧ Inside store (d ++ '\\' :: (id ++ '\\' :: f)) p

/-- The directory of the store, if one is given, is not verbatim. -/
def PlainStore (out : Output.Out) : Prop :=
  ∀ dir, out = .store dir ∨ (∃ fo, out = .fileAndStore fo dir) → dir ≠ [] → PlainDir dir

/-- The destinations asked for: the output file (or stream), and the file in the store unless its directory is empty. -/
inductive Requested (out : Output.Out) (o : ObjectInfo) : Output.FileOutput → Prop where
  | file {fo : Output.FileOutput} (h : out = .file fo ∨ ∃ d, out = .fileAndStore fo d) : Requested out o fo
  | store {dir p : Str} (h : out = .store dir ∨ ∃ fo, out = .fileAndStore fo dir) (hd : dir ≠ [])
      (hp : InStore dir o.fileName o.debugId p) : Requested out o (.path p)

end WinHost
end DumpSyms
