import Verif.Props.OfflineRun
import Verif.Props.WinOffline
import Verif.Props.AppliedMore
/-!
# C88 and C136: the whole program on one PE without a PDB, with and without HTTP
-/
namespace DumpSyms
namespace Offline
open Dumper Path
open Run (Options Orders actionOf)

/-- If both builds read the input as the same module, then they end in the same ways. -/
theorem exits_single {env : Env} {version : Str} {cpus : Nat} {o : Options} {w : Cache.World} {orders : Orders} {out : Output.World} {f : Str}
    (hf : o.filenames = [f]) (h : ∀ config, actionOf cpus o = .dump config → (Dumper.readSingle env config f w).1 = readSingle env config f w.disk)
    (status : Nat) (out' : Output.World) :
    Exits env version cpus o w.disk orders out status out' ↔ Run.Exits env version cpus o w orders out status out' := by
  have hone : ∀ extra config, actionOf cpus o = .dump config →
      (Dumper.singleFile env extra config f w out).1 = (singleFile env extra config f w.disk out).1 ∧
      (Dumper.singleFile env extra config f w out).2.2 = (singleFile env extra config f w.disk out).2 := by
    intro extra config hc
    unfold Dumper.singleFile singleFile
    rw [← h config hc]
    cases hr : Dumper.readSingle env config f w with
    | mk r w' => cases r <;> exact ⟨rfl, rfl⟩
  constructor
  · intro hx
    cases hx with
    | badInfo h => exact .badInfo h
    | acts extra r _ he ha =>
      refine .acts extra r _ he ?_
      generalize hact : actionOf cpus o = a at ha ⊢
      cases ha with
      | list => exact .list
      | single config g hg =>
        rw [hf] at hg; cases hg
        have := Run.Acts.single (env := env) (extra := some extra) (files := o.filenames) (w := w) (orders := orders) (out := out) config f hf
        rw [(hone (some extra) config hact).1, (hone (some extra) config hact).2] at this
        exact this
      | several config r out' hl hs => rw [hf] at hl; exact absurd rfl hl
  · intro hx
    cases hx with
    | badInfo h => exact .badInfo h
    | acts extra r _ he ha =>
      refine .acts extra r _ he ?_
      generalize hact : actionOf cpus o = a at ha ⊢
      cases ha with
      | list => exact .list
      | single config g hg =>
        rw [hf] at hg; cases hg
        rw [(hone (some extra) config hact).1, (hone (some extra) config hact).2]
        exact .single config f hf
      | several config ws r out' hl _ hs => rw [hf] at hl; exact absurd rfl hl

/-- **C88 (a PE)** Given one PE whose PDB is not found, or is found and cannot be used, the program built without HTTP ends as the
full program does and leaves the same files.  Missing: a PE with a PDB that can be used, for which it is false. -/
theorem C88_program_pe_partial (env : Env) (version : Str) (cpus : Nat) (o : Options) {pre filename : Str} (w : Cache.World) (orders : Orders) (out : Output.World)
    (hfiles : o.filenames = [pre ++ filename]) (hp : DirPart pre) (hn : ProperComp filename)
    (hsane : Sane env w.disk) (h1 : o.debugId = none) (h2 : o.codeId = none) {b : Bytes}
    (hb : PathHolds env.net.cab w.disk (pre ++ filename) b) (hsp : SanePe env b) (hk : env.parsers.peek b = .pe)
    {pe : ObjInput} {recorded : Option Str} (hpe : env.parsers.pe b = some (pe, recorded)) {mapping : Option (List Mapping.Generator)} {arch : Str}
    (hm : Mapping.new env.map o.mappingVar o.mappingSrc o.mappingDest o.mappingFile = .ok mapping)
    (ha : env.parsers.arch o.arch = some arch) {servers : Option (List Cache.Server)} {found : Option (Bytes × Str)} {w' : Cache.World}
    (hs : Cache.Configured env.home w.disk o.symbolServer servers)
    (hf : WinUtils.PdbFor env.net env.cwd (pre ++ filename) pe.debugId servers w recorded found w')
    (hno : ∀ b n o fs, found = some (b, n) → env.parsers.pdb b = .ok o → o.functions ≠ .ok fs) (status : Nat) (out' : Output.World) :
    Exits env version cpus o w.disk orders out status out' ↔ Run.Exits env version cpus o w orders out status out' := by
  refine exits_single hfiles (fun config hc => ?_) status out'
  unfold actionOf at hc
  split at hc
  · cases hc
  · cases hc
    rw [C88_pe_alone env _ w hp hn hsane h1 h2 hb hsp hk hpe hm ha hs hf hno]

/-- C88 applied: the PE records no PDB with a name.  Both builds end alike, and the one without HTTP succeeds. -/
example : let w := exWorld [(str% "/d/m.exe", .file [3, 1] true)]
    (∀ status out', Exits exEnv (str% "1.0") 4 (Run.exOptions [str% "/d/m.exe"]) w.disk Run.exOrders Output.emptyWorld status out' ↔
      Run.Exits exEnv (str% "1.0") 4 (Run.exOptions [str% "/d/m.exe"]) w Run.exOrders Output.emptyWorld status out') ∧
    ∃ out', Exits exEnv (str% "1.0") 4 (Run.exOptions [str% "/d/m.exe"]) w.disk Run.exOrders Output.emptyWorld 0 out' := by
  intro w
  refine ⟨C88_program_pe_partial exEnv _ _ _ (pre := str% "/d/") (filename := str% "m.exe") w _ _ rfl (.inr rfl) (by unfold ProperComp; decide)
    (Run.crashSane _ (by intro x hx es; rcases List.mem_singleton.mp hx with rfl; intro h; cases h)) rfl rfl (b := [3, 1])
    ⟨_, str% "/d/", str% "m.exe", [3, 1], .file _ rfl, rfl, .inr rfl, by unfold ProperComp; decide, .plain rfl⟩
    (by
      intro pe rec h
      cases h
      refine ⟨by unfold ProperComp; decide, ?_⟩
      intro r hr
      cases hr
      exact .inl (by decide)) rfl (pe := exObj .pe (str% "A1") (str% "x86") none) (recorded := some (str% "C:\\x\\..")) rfl
    (mapping := none) (arch := str% "x86_64") rfl rfl (servers := none) (found := none) (.noConfig (str% "/home/u") rfl rfl)
    (.noFile _ (by decide)) (by intro b n o fs h; cases h), ?_⟩
  have h := Acts.single (env := exEnv) (extra := some []) (files := [str% "/d/m.exe"]) (d := w.disk) (orders := Run.exOrders) (out := Output.emptyWorld)
    (match Run.actionOf 4 (Run.exOptions [str% "/d/m.exe"]) with | .dump c => c | .listArch => exConfig) (str% "/d/m.exe") rfl
  have hr : (singleFile exEnv (some []) (match Run.actionOf 4 (Run.exOptions [str% "/d/m.exe"]) with | .dump c => c | .listArch => exConfig) (str% "/d/m.exe") w.disk Output.emptyWorld).1 = .ok () := by decide +kernel
  rw [hr] at h
  exact ⟨_, .acts [] (.ok ()) _ rfl h⟩

end Offline

namespace WinOffline
open Dumper (Env Config)
open Run (Options Orders actionOf)

/-- If both builds read the input as the same module, then they end in the same ways. -/
theorem exits_single {env : Env} {version : Str} {cpus : Nat} {o : Options} {w : Cache.World} {orders : Orders} {out : Output.World} {f : Str}
    (hf : o.filenames = [f]) (h : ∀ config, actionOf cpus o = .dump config → (WinHost.readSingle env config f w).1 = readSingle env config f w.disk)
    (status : Nat) (out' : Output.World) :
    Exits env version cpus o w.disk orders out status out' ↔ WinHost.Exits env version cpus o w orders out status out' := by
  have hone : ∀ extra config, actionOf cpus o = .dump config →
      (WinHost.singleFile env extra config f w out).1 = (singleFile env extra config f w.disk out).1 ∧
      (WinHost.singleFile env extra config f w out).2.2 = (singleFile env extra config f w.disk out).2 := by
    intro extra config hc
    unfold WinHost.singleFile singleFile
    rw [← h config hc]
    cases hr : WinHost.readSingle env config f w with
    | mk r w' => cases r <;> exact ⟨rfl, rfl⟩
  constructor
  · intro hx
    cases hx with
    | badInfo h => exact .badInfo h
    | acts extra r _ he ha =>
      refine .acts extra r _ he ?_
      generalize hact : actionOf cpus o = a at ha ⊢
      cases ha with
      | list => exact .list
      | single config g hg =>
        rw [hf] at hg; cases hg
        have := WinHost.Acts.single (env := env) (extra := some extra) (files := o.filenames) (w := w) (orders := orders) (out := out) config f hf
        rw [(hone (some extra) config hact).1, (hone (some extra) config hact).2] at this
        exact this
      | several config r out' hl hs => rw [hf] at hl; exact absurd rfl hl
  · intro hx
    cases hx with
    | badInfo h => exact .badInfo h
    | acts extra r _ he ha =>
      refine .acts extra r _ he ?_
      generalize hact : actionOf cpus o = a at ha ⊢
      cases ha with
      | list => exact .list
      | single config g hg =>
        rw [hf] at hg; cases hg
        rw [(hone (some extra) config hact).1, (hone (some extra) config hact).2]
        exact .single config f hf
      | several config ws r out' hl _ hs => rw [hf] at hl; exact absurd rfl hl

/-- **C136 (a PE)** On Windows too: given one PE whose PDB is not found, or is found and cannot be used, both builds end alike.
Missing: a PE with a PDB that can be used, for which it is false. -/
theorem C136_program_pe_partial (env : Env) (version : Str) (cpus : Nat) (o : Options) {pre filename : Str} (w : Cache.World) (orders : Orders) (out : Output.World)
    (hfiles : o.filenames = [pre ++ filename]) (hp : WinDirPart pre) (hn : WinProper filename)
    (hsane : WinHost.Sane env w.disk) (hca : WinHost.SaneCaches env o.symbolServer w.disk) (h1 : o.debugId = none) (h2 : o.codeId = none)
    {b : Bytes} (hb : WinHost.PathHolds env.net.cab w.disk (pre ++ filename) b) (hsp : WinHost.SanePe env b) (hk : env.parsers.peek b = .pe)
    {pe : ObjInput} {recorded : Option Str} (hpe : env.parsers.pe b = some (pe, recorded)) {mapping : Option (List Mapping.Generator)} {arch : Str}
    (hm : Mapping.new env.map o.mappingVar o.mappingSrc o.mappingDest o.mappingFile = .ok mapping)
    (ha : env.parsers.arch o.arch = some arch) {servers : Option (List Cache.Server)} {found : Option (Bytes × Str)} {w' : Cache.World}
    (hs : WinHost.Configured env.home w.disk o.symbolServer servers)
    (hf : WinHost.PdbFor env.net env.cwd (pre ++ filename) pe.debugId servers w recorded found w')
    (hno : ∀ b n o fs, found = some (b, n) → env.parsers.pdb b = .ok o → o.functions ≠ .ok fs) (status : Nat) (out' : Output.World) :
    Exits env version cpus o w.disk orders out status out' ↔ WinHost.Exits env version cpus o w orders out status out' := by
  refine exits_single hfiles (fun config hc => ?_) status out'
  unfold actionOf at hc
  split at hc
  · cases hc
  · cases hc
    rw [C136_pe_alone env _ w hp hn hsane hca h1 h2 hb hsp hk hpe hm ha hs hf hno]

/-- The options of a run on the PE alone. -/
def loneOptions : Options := { Run.exOptions [str% "C:\\w\\a.dll"] with store := some (str% "D:\\s") }

/-- C136 applied: there is no PDB.  Both builds end alike, and the one without HTTP succeeds. -/
example :
    (∀ status out', Exits WinHost.winEnv (str% "1.0") 4 loneOptions loneDll.disk Run.exOrders Output.emptyWorld status out' ↔
      WinHost.Exits WinHost.winEnv (str% "1.0") 4 loneOptions loneDll Run.exOrders Output.emptyWorld status out') ∧
    ∃ out', Exits WinHost.winEnv (str% "1.0") 4 loneOptions loneDll.disk Run.exOrders Output.emptyWorld 0 out' := by
  have hs : WinHost.Configured WinHost.winEnv.home loneDll.disk none none :=
    ((WinHost.C110_configured WinHost.winEnv.home loneDll.disk none loneDll_sane.home).1 _).mp (by decide +kernel)
  have hca : WinHost.SaneCaches WinHost.winEnv none loneDll.disk := by
    intro ss h
    have := ((WinHost.C110_configured WinHost.winEnv.home loneDll.disk none loneDll_sane.home).1 _).mpr h
    rw [show WinHost.getSymServers WinHost.winEnv.home loneDll.disk none = .ok none by decide +kernel] at this
    cases this
  have hsp : WinHost.SanePe WinHost.winEnv [3] := by
    intro pe rec hp
    cases hp
    refine ⟨WinHost.winProper_of (by decide), ?_⟩
    intro r hr
    cases hr
    exact .inr ⟨str% "C:\\x/", str% "m.pdb", rfl,
      ⟨str% "C:\\", str% "x/", rfl, .driveRooted 'C' '\\' _ (by decide) (by decide), .inr ⟨str% "x", '/', rfl, by decide⟩⟩, WinHost.winProper_of (by decide)⟩
  have hn : WinProper (str% "a.dll") := WinHost.winProper_of (by decide)
  obtain ⟨k1, k2⟩ := hsp _ _ rfl
  obtain ⟨c1, _⟩ := WinHost.C111_source WinHost.winEnv.net (Dumper.seenPe WinHost.winEnv.parsers) WinHost.winEnv.cwd (str% "C:\\w\\" ++ str% "a.dll") [3] none
    loneDll rfl (WinHost.dirOf_exists WinHost.ex_part_drive hn) loneDll_sane.cwd k2 k1 loneDll_sane.dirs loneDll_sane.room loneDll_sane.arrivals
    (fun ss h => by cases h)
  obtain ⟨y, hf, hy⟩ := (c1 none loneDll).mp rfl
  have hy : y = none := by cases y <;> simp_all
  subst hy
  refine ⟨C136_program_pe_partial WinHost.winEnv _ _ loneOptions (pre := str% "C:\\w\\") (filename := str% "a.dll") loneDll _ _ rfl WinHost.ex_part_drive hn loneDll_sane hca rfl rfl
    (((WinHost.readFile_dir WinHost.winEnv.net.cab loneDll.disk WinHost.ex_part_drive hn loneDll_sane.dirs).1 [3]).mp rfl)
    hsp rfl rfl (mapping := none) (arch := str% "x86_64") rfl rfl hs hf (fun _ _ _ _ h => by cases h), ?_⟩
  have h := Acts.single (env := WinHost.winEnv) (extra := some []) (files := [str% "C:\\w\\a.dll"]) (d := loneDll.disk) (orders := Run.exOrders)
    (out := Output.emptyWorld) (match actionOf 4 loneOptions with | .dump c => c | .listArch => Dumper.exConfig) (str% "C:\\w\\a.dll") rfl
  have hr : (singleFile WinHost.winEnv (some []) (match actionOf 4 loneOptions with | .dump c => c | .listArch => Dumper.exConfig) (str% "C:\\w\\a.dll") loneDll.disk Output.emptyWorld).1 = .ok () := by decide +kernel
  rw [hr] at h
  exact ⟨_, .acts [] (.ok ()) _ rfl h⟩

end WinOffline
end DumpSyms
