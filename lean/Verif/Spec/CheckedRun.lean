import Verif.Model.CheckedRun
import Verif.Spec.Checked
/-!
# The object files that an input is dumped from
-/
namespace DumpSyms
namespace CheckedRun

/-- The object file that `buf`, read from `path`, is dumped from: the file itself, the object of the architecture `arch` in an archive, or,
for a PE file, the PDB file found for it or the PE file itself. -/
inductive MainObject (env : Dumper.Env) (buf : Bytes) (path arch : Str) (server : Option Str) (w : Cache.World) : ObjInput → Prop where
  | elf (o : ObjInput) (h : env.parsers.elf buf = .ok o) : MainObject env buf path arch server w o
  | macho (l : List (Option ObjInput)) (o : ObjInput) (h : env.parsers.archive buf = .ok l) (hs : Dumper.selectObject arch l = .ok (some o)) :
      MainObject env buf path arch server w o
  | pdb (o : ObjInput) (h : env.parsers.pdb buf = .ok o) : MainObject env buf path arch server w o
  | found (servers : Option (List Cache.Server)) (o : ObjInput) (pe : WinUtils.Pe) (pdbBuf : Bytes) (name : Str)
      (hs : Cache.getSymServers env.home w.disk server = .ok servers)
      (hp : (WinUtils.getPePdbBuf env.net (Dumper.parsePe env.parsers) env.cwd path buf servers w).1 = .ok (some (pe, pdbBuf, name)))
      (h : env.parsers.pdb pdbBuf = .ok o) : MainObject env buf path arch server w o
  | pe (o : ObjInput) (name : Option Str) (h : env.parsers.pe buf = some (o, name)) : MainObject env buf path arch server w o

/-- Everything in the object file ends below 2^32. -/
def Small (o : ObjInput) : Prop := ∀ fs, o.functions = .ok fs → o.Fits fs

/-- The object file that a run on one file dumps is small. -/
def SmallFile (env : Dumper.Env) (config : Dumper.Config) (path : Str) (w : Cache.World) : Prop :=
  ∀ filename buf mapping arch, Utils.getFilename path = .ok filename → (Dumper.getFromId env config path filename w).1 = .ok buf →
    Dumper.prepare env config = .ok (mapping, arch) →
    ∀ o, MainObject env buf path arch config.symbolServer (Dumper.getFromId env config path filename w).2 o → Small o

/-- The number of inlined functions of a module. -/
def inlinedOf : Res ObjectInfo → Nat
  | .ok m => m.inlineOrigins.length
  | _ => 0

/-- The object files that a run on several files dumps are small, whatever the workers have put into the caches, and together they have
fewer than 2^32 inlined functions. -/
structure SmallFiles (env : Dumper.Env) (config : Dumper.Config) (files : List Str) (w : Cache.World) : Prop where
  small : ∀ f ∈ files, ∀ w', Run.Meanwhile env w w' → ∀ buf, Files.readFile env.net.cab w'.disk f = .ok buf →
    ∀ mapping arch, Dumper.prepare env config = .ok (mapping, arch) → ∀ o, MainObject env buf f arch none w' o → Small o
  origins : ∀ ws : Nat → Cache.World, (∀ i, Run.Meanwhile env w (ws i)) → ∀ mapping arch, Dumper.prepare env config = .ok (mapping, arch) →
    ((List.range files.length).map fun i =>
      match files[i]? with
      | some f => inlinedOf (Dumper.parseInput env config mapping arch f (ws i)).1
      | none => 0).sum < M32

end CheckedRun
end DumpSyms
