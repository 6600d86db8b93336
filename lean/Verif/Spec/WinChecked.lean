import Verif.Model.WinChecked
import Verif.Spec.CheckedRun
/-!
# The object files that an input is dumped from on Windows
-/
namespace DumpSyms
namespace WinChecked
open CheckedRun (Small inlinedOf)

/-- The object file that `buf`, read from `path`, is dumped from: the file itself, the object of the architecture `arch` in an archive, or,
for a PE file, the PDB file found for it or the PE file itself. -/
inductive MainObject (env : Dumper.Env) (buf : Bytes) (path arch : Str) (server : Option Str) (w : Cache.World) : ObjInput → Prop where
  | elf (o : ObjInput) (h : env.parsers.elf buf = .ok o) : MainObject env buf path arch server w o
  | macho (l : List (Option ObjInput)) (o : ObjInput) (h : env.parsers.archive buf = .ok l) (hs : Dumper.selectObject arch l = .ok (some o)) :
      MainObject env buf path arch server w o
  | pdb (o : ObjInput) (h : env.parsers.pdb buf = .ok o) : MainObject env buf path arch server w o
  | found (servers : Option (List Cache.Server)) (o : ObjInput) (pe : WinUtils.Pe) (pdbBuf : Bytes) (name : Str)
      (hs : WinHost.getSymServers env.home w.disk server = .ok servers)
      (hp : (WinHost.getPePdbBuf env.net (Dumper.parsePe env.parsers) env.cwd path buf servers w).1 = .ok (some (pe, pdbBuf, name)))
      (h : env.parsers.pdb pdbBuf = .ok o) : MainObject env buf path arch server w o
  | pe (o : ObjInput) (name : Option Str) (h : env.parsers.pe buf = some (o, name)) : MainObject env buf path arch server w o

/-- The object file that a run on one file dumps is small. -/
def SmallFile (env : Dumper.Env) (config : Dumper.Config) (path : Str) (w : Cache.World) : Prop :=
  ∀ filename buf mapping arch, WinHost.getFilename path = .ok filename → (WinHost.getFromId env config path filename w).1 = .ok buf →
    Dumper.prepare env config = .ok (mapping, arch) →
    ∀ o, MainObject env buf path arch config.symbolServer (WinHost.getFromId env config path filename w).2 o → Small o

/-- The object files that a run on several files dumps are small, whatever the workers have put into the caches, and together they have
fewer than 2^32 inlined functions. -/
structure SmallFiles (env : Dumper.Env) (config : Dumper.Config) (files : List Str) (w : Cache.World) : Prop where
  small : ∀ f ∈ files, ∀ w', WinHost.Meanwhile env w w' → ∀ buf, WinHost.readFile env.net.cab w'.disk f = .ok buf →
    ∀ mapping arch, Dumper.prepare env config = .ok (mapping, arch) → ∀ o, MainObject env buf f arch none w' o → Small o
  origins : ∀ ws : Nat → Cache.World, (∀ i, WinHost.Meanwhile env w (ws i)) → ∀ mapping arch, Dumper.prepare env config = .ok (mapping, arch) →
    ((List.range files.length).map fun i =>
      match files[i]? with
      | some f => inlinedOf (WinHost.parseInput env config mapping arch f (ws i)).1
      | none => 0).sum < M32

end WinChecked
end DumpSyms
