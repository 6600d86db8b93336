import Verif.Spec.WinFiles
import Verif.Model.Dumper
/-!
# What a file is dumped from

Of the model only the descriptions of the surroundings and of the configuration are used.
-/
namespace DumpSyms

/-- `last` is what follows the last `c` of `s` (all of `s` if there is none). -/
def AfterLast (c : Char) (s last : Str) : Prop := c ∉ last ∧ ∃ pre, s = pre ++ last ∧ (pre = [] ∨ pre.getLast? = some c)

namespace Dumper

/-- What is seen of a PE when its PDB is looked for. -/
def seenPe (p : Parsers) : WinUtils.ParsePe := fun b => (p.pe b).map fun x => ⟨x.1.debugId, x.2⟩

/-- What a file is dumped from: the object with the debug information, the name the module gets if the object does not have one, the PE
that goes with it and its name, the platform, whether the path mappings and inline information asked for are used, and the state left by
looking for it.  A PE is dumped alone when no PDB is found for it, or one that cannot be parsed or whose functions cannot be listed. -/
inductive DumpedFrom (env : Env) (buf : Bytes) (path filename arch : Str) (symbolServer : Option Str) (w : Cache.World) :
    ObjInput → Str → Option ObjInput → Option Str → Platform → Bool → Cache.World → Prop where
  | elf (o : ObjInput) (hk : env.parsers.peek buf = .elf) (h : env.parsers.elf buf = .ok o) :
      DumpedFrom env buf path filename arch symbolServer w o filename none none .linux true w
  | machoOnly (o : ObjInput) (hk : env.parsers.peek buf = .machO) (h : env.parsers.archive buf = .ok [some o]) :
      DumpedFrom env buf path filename arch symbolServer w o filename none none .mac true w
  | machoOf (o : ObjInput) (before after : List (Option ObjInput)) (hk : env.parsers.peek buf = .machO)
      (h : env.parsers.archive buf = .ok (before ++ some o :: after)) (hs : before ≠ [] ∨ after ≠ []) (ha : o.arch = arch)
      (hb : ∀ x, some x ∈ before → x.arch ≠ arch) :
      DumpedFrom env buf path filename arch symbolServer w o filename none none .mac true w
  | pdb (o : ObjInput) (hk : env.parsers.peek buf = .pdb) (h : env.parsers.pdb buf = .ok o)
      (hf : WinUtils.PeFor env.net.cab (seenPe env.parsers) w.disk path o.debugId none) :
      DumpedFrom env buf path filename arch symbolServer w o filename none none .win true w
  | pdbPe (o pe : ObjInput) (peBuf : Bytes) (peName : Str) (recorded : Option Str) (hk : env.parsers.peek buf = .pdb)
      (h : env.parsers.pdb buf = .ok o)
      (hf : WinUtils.PeFor env.net.cab (seenPe env.parsers) w.disk path o.debugId (some (peName, peBuf)))
      (hp : env.parsers.pe peBuf = some (pe, recorded)) :
      DumpedFrom env buf path filename arch symbolServer w o filename (some pe) (some peName) .win true w
  | pePdb (o pe : ObjInput) (pdbBuf : Bytes) (pdbName : Str) (recorded : Option Str) (servers : Option (List Cache.Server))
      (fs : List (Option Func)) (w' : Cache.World) (hk : env.parsers.peek buf = .pe) (hp : env.parsers.pe buf = some (pe, recorded))
      (hs : Cache.Configured env.home w.disk symbolServer servers)
      (hf : WinUtils.PdbFor env.net env.cwd path pe.debugId servers w recorded (some (pdbBuf, pdbName)) w')
      (h : env.parsers.pdb pdbBuf = .ok o) (hl : o.functions = .ok fs) :
      DumpedFrom env buf path filename arch symbolServer w o pdbName (some pe) (some filename) .win true w'
  | pe (pe : ObjInput) (name : Str) (recorded : Option Str) (servers : Option (List Cache.Server)) (found : Option (Bytes × Str))
      (w' : Cache.World) (hk : env.parsers.peek buf = .pe) (hp : env.parsers.pe buf = some (pe, recorded))
      (hs : Cache.Configured env.home w.disk symbolServer servers)
      (hf : WinUtils.PdbFor env.net env.cwd path pe.debugId servers w recorded found w')
      (hno : ∀ b n o fs, found = some (b, n) → env.parsers.pdb b = .ok o → o.functions ≠ .ok fs)
      (hn : AfterLast '\\' (recorded.getD filename) name) :
      DumpedFrom env buf path filename arch symbolServer w pe name none (some filename) .win false w'

/-- What a run on one file reads: the file at the path, or, if an id is given, what a search for its name and that id finds (the debug id
is preferred).  The state after it. -/
inductive Contents (env : Env) (config : Config) (path filename : Str) (w : Cache.World) : Bytes → Cache.World → Prop
  | byPath (b : Bytes) : config.debugId = none → config.codeId = none → PathHolds env.net.cab w.disk path b →
      Contents env config path filename w b w
  | byId (id : Str) (servers : Option (List Cache.Server)) (b : Bytes) (w' : Cache.World) :
      (config.debugId = some id ∨ config.debugId = none ∧ config.codeId = some id) →
      Cache.Configured env.home w.disk config.symbolServer servers → Cache.Search env.net filename id servers w (some b) w' →
      Contents env config path filename w b w'

/-- What is assumed of the surroundings of a run: names of directory entries are names, answers of symbol servers come from servers that
were asked and fit on the disk, the current directory is a path that names something. -/
structure Sane (env : Env) (d : Disk) : Prop where
  dirs : ∀ q es, d q = some (.dir es) → ∀ e ∈ es, ProperComp e
  room : ∀ u st raw p, env.net.get u = some (st, raw) → raw.length ≤ env.net.room p
  arrivals : ∀ js, ∀ j ∈ env.net.arrivals js, j ∈ js
  cwd : Usable env.cwd

/-- What is assumed of a file: the debug id of a PE is a name, and the path recorded in it is usable. -/
def SanePe (env : Env) (buf : Bytes) : Prop :=
  ∀ pe recorded, env.parsers.pe buf = some (pe, recorded) → ProperComp pe.debugId ∧ ∀ r, recorded = some r → Usable (WinUtils.slashes r)

end Dumper
end DumpSyms
