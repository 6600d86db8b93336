import Verif.Props.OfflinePe
/-!
# C88 and C136: several files, some of them PE files without a PDB, with and without HTTP
-/
namespace DumpSyms
namespace Offline
open Dumper Path
open Run (Options Orders actionOf)

/-- A PE file for which no PDB, or none that can be used, is found where it is looked for, no symbol server being configured. -/
inductive LonePe (env : Env) (w : Cache.World) : Str → Prop where
  | mk (pre filename : Str) (b : Bytes) (pe : ObjInput) (recorded : Option Str) (found : Option (Bytes × Str)) (w' : Cache.World)
      (hp : DirPart pre) (hn : ProperComp filename) (hsane : Sane env w.disk) (hb : PathHolds env.net.cab w.disk (pre ++ filename) b)
      (hsp : SanePe env b) (hk : env.parsers.peek b = .pe) (hpe : env.parsers.pe b = some (pe, recorded))
      (hs : Cache.Configured env.home w.disk none none)
      (hf : WinUtils.PdbFor env.net env.cwd (pre ++ filename) pe.debugId none w recorded found w')
      (hno : ∀ b n o fs, found = some (b, n) → env.parsers.pdb b = .ok o → o.functions ≠ .ok fs) : LonePe env w (pre ++ filename)

theorem LonePe.parse {env : Env} {w w1 : Cache.World} (hw : Run.Meanwhile env w w1) (config : Config) (mapping : Option (List Mapping.Generator))
    (arch : Str) {f : Str} (h : LonePe env w f) : (Dumper.parseInput env config mapping arch f w1).1 = parseInput env config mapping arch f w.disk := by
  cases h with
  | mk pre filename b pe recorded found w' hp hn hsane hb hsp hk hpe hs hf hno =>
    have hread : Files.readFile env.net.cab w.disk (pre ++ filename) = .ok b :=
      ((C77_read_any env.net.cab w.disk (pre ++ filename) (fun _ _ _ => ⟨pre, filename, rfl, hp, hn⟩) hsane.dirs).1 b).mpr hb
    have hnone := ((Cache.C44_configured env.home w.disk none).1 _).mpr hs
    rw [Run.C97_no_server_partial hw (fun ss h => by rw [hnone] at h; cases h) config mapping arch (pre ++ filename)]
    unfold Dumper.parseInput parseInput
    rw [Utils.getFilename, fileName_dirPart hp hn, hread]
    simp only [Bind.bind, Res.bind]
    rw [C81_complete env arch none hp hn hsane hsp (.pe pe _ recorded none found w' hk hpe hs hf hno (afterLast_winPath _))]
    simp [getObjectInfo, hk, getPePdbObjectInfo, getPeObjectInfo, hpe, fromPe]

/-- **C88 (several files)** On any number of files but one, the two builds can end in the same ways and with the same files and texts written, when
every input can do without a symbol server or is a PE without a PDB that can be used.  Missing: a PE with one, for which it is false, and, when a symbol server is configured, every PE and PDB. -/
theorem C88_program_several_partial (env : Env) (version : Str) (cpus : Nat) (o : Options) (w : Cache.World) (orders : Orders) (out : Output.World)
    (hl : o.filenames.length ≠ 1) (h : ∀ f ∈ o.filenames, Run.NeedsNoServer env w f ∨ LonePe env w f) (status : Nat) (out' : Output.World) :
    Exits env version cpus o w.disk orders out status out' ↔ Run.Exits env version cpus o w orders out status out' := by
  have ht : ∀ {ws : Nat → Cache.World} (_ : ∀ i, Run.Meanwhile env w (ws i)) extra config mapping arch,
      Run.threads env extra config o.filenames ws orders mapping arch out = threads env extra config o.filenames w.disk orders mapping arch out := by
    intro ws hw extra config mapping arch
    unfold Run.threads threads
    congr 1
    funext i
    cases hi : o.filenames[i]? with
    | none => rfl
    | some f =>
      rcases h f (List.mem_of_getElem? hi) with h | h
      · exact Run.parseInput_offline (hw i) config mapping arch h
      · exact h.parse (hw i) config mapping arch
  constructor
  · intro hx
    cases hx with
    | badInfo h => exact .badInfo h
    | acts extra r _ he ha =>
      refine .acts extra r _ he ?_
      generalize hact : actionOf cpus o = a at ha ⊢
      cases ha with
      | list => exact .list
      | single config f hf => rw [hf] at hl; exact absurd rfl hl
      | several config r out' hf hs =>
        have ht := ht (ws := fun _ => w) (fun _ => .start) (some extra) config
        refine .several config (fun _ => w) r out' hf (fun _ => .start) ?_
        cases hs with
        | badOptions m h => exact .badOptions m h
        | badMapping h => exact .badMapping h
        | returned mapping arch m h hr hs => rw [← ht] at hr hs; exact .returned mapping arch m h hr hs
        | crashed mapping arch m h hr hs => rw [← ht] at hr; exact .crashed mapping arch m h hr hs
  · intro hx
    cases hx with
    | badInfo h => exact .badInfo h
    | acts extra r _ he ha =>
      refine .acts extra r _ he ?_
      generalize hact : actionOf cpus o = a at ha ⊢
      cases ha with
      | list => exact .list
      | single config f hf => rw [hf] at hl; exact absurd rfl hl
      | several config ws r out' hf hw hs =>
        have ht := ht hw (some extra) config
        refine .several config r out' hf ?_
        cases hs with
        | badOptions m h => exact .badOptions m h
        | badMapping h => exact .badMapping h
        | returned mapping arch m h hr hs => rw [ht] at hr hs; exact .returned mapping arch m h hr hs
        | crashed mapping arch m h hr hs => rw [ht] at hr; exact .crashed mapping arch m h hr hs

/-- A PE that records no PDB with a name, and an ELF file. -/
def peAndElf : Cache.World := exWorld [(str% "/d/m.exe", .file [3, 1] true), (str% "/d/a", .file [1] true)]
def mixedOptions : Options := { Run.exOptions [str% "/d/m.exe", str% "/d/a"] with numJobs := str% "2" }
def mixedConfig : Config := { exConfig with output := .store (str% "/s"), numJobs := 2 }
def mixedThreads : Threads.Env :=
  Run.threads exEnv (some []) mixedConfig mixedOptions.filenames (fun _ => peAndElf) Run.exOrders none (str% "x86_64") Output.emptyWorld
def mixedLast : Threads.Moment :=
  Run.played mixedThreads (Output.callsOf exEnv.io (some []) mixedConfig.output mixedConfig.checkCfi) Output.emptyWorld (Run.whole Run.exRun)

theorem mixed_lone : LonePe exEnv peAndElf (str% "/d/m.exe") :=
  .mk (str% "/d/") (str% "m.exe") [3, 1] (exObj .pe (str% "A1") (str% "x86") none) (some (str% "C:\\x\\..")) none _ (.inr rfl) (by unfold ProperComp; decide)
    (Run.crashSane _ (by
      intro x hx es h
      simp only [List.mem_cons, List.not_mem_nil, or_false] at hx
      rcases hx with rfl | rfl <;> cases h))
    ⟨_, str% "/d/", str% "m.exe", [3, 1], .file _ rfl, rfl, .inr rfl, by unfold ProperComp; decide, .plain rfl⟩
    (by
      intro pe rec h
      cases h
      refine ⟨by unfold ProperComp; decide, ?_⟩
      intro r hr
      cases hr
      exact .inl (by decide)) rfl rfl (.noConfig (str% "/home/u") rfl rfl) (.noFile _ (by decide)) (by intro b n o fs h; cases h)

/-- C88 applied: the build without HTTP can end as this run of the full program, which dumps both files. -/
example : Exits exEnv (str% "1.0") 4 mixedOptions peAndElf.disk Run.exOrders Output.emptyWorld 0 mixedLast.out ∧
    (mixedLast.out.files (str% "/s/lib.so/E1/lib.so.sym")).isSome := by
  refine ⟨(C88_program_several_partial exEnv (str% "1.0") 4 mixedOptions peAndElf Run.exOrders Output.emptyWorld (by decide) ?_ _ _).mpr
    (.acts [] (.ok ()) _ rfl (.several mixedConfig (fun _ => peAndElf) (.ok ()) _ (by decide) (fun _ => .start)
      (.returned none (str% "x86_64") mixedLast rfl (Run.played_moments (by decide +kernel)) (by decide +kernel)))), by decide +kernel⟩
  intro f hf
  have hf : f = str% "/d/m.exe" ∨ f = str% "/d/a" := by simpa [mixedOptions, Run.exOptions] using hf
  rcases hf with rfl | rfl
  · exact .inr mixed_lone
  · exact .inl (.inl ⟨[1], rfl, by decide, by decide⟩)

end Offline

namespace WinOffline
open Dumper (Env Config)
open Run (Options Orders actionOf)

/-- A PE file for which no PDB, or none that can be used, is found where it is looked for, no symbol server being configured. -/
inductive LonePe (env : Env) (w : Cache.World) : Str → Prop where
  | mk (pre filename : Str) (b : Bytes) (pe : ObjInput) (recorded : Option Str) (found : Option (Bytes × Str)) (w' : Cache.World)
      (hp : WinDirPart pre) (hn : WinProper filename) (hsane : WinHost.Sane env w.disk) (hca : WinHost.SaneCaches env none w.disk) (hb : WinHost.PathHolds env.net.cab w.disk (pre ++ filename) b)
      (hsp : WinHost.SanePe env b) (hk : env.parsers.peek b = .pe) (hpe : env.parsers.pe b = some (pe, recorded))
      (hs : WinHost.Configured env.home w.disk none none)
      (hf : WinHost.PdbFor env.net env.cwd (pre ++ filename) pe.debugId none w recorded found w')
      (hno : ∀ b n o fs, found = some (b, n) → env.parsers.pdb b = .ok o → o.functions ≠ .ok fs) : LonePe env w (pre ++ filename)

theorem LonePe.parse {env : Env} {w w1 : Cache.World} (hw : WinHost.Meanwhile env w w1) (config : Config) (mapping : Option (List Mapping.Generator))
    (arch : Str) {f : Str} (h : LonePe env w f) : (WinHost.parseInput env config mapping arch f w1).1 = parseInput env config mapping arch f w.disk := by
  cases h with
  | mk pre filename b pe recorded found w' hp hn hsane hca hb hsp hk hpe hs hf hno =>
    have hread : WinHost.readFile env.net.cab w.disk (pre ++ filename) = .ok b :=
      ((WinHost.readFile_dir env.net.cab w.disk hp hn hsane.dirs).1 b).mpr hb
    have hnone := ((WinHost.C110_configured env.home w.disk none hsane.home).1 _).mpr hs
    rw [WinHost.C131_no_server_partial hw (fun ss h => by rw [hnone] at h; cases h) config mapping arch (pre ++ filename)]
    unfold WinHost.parseInput parseInput
    rw [WinHost.getFilename, WinHost.fileName_dir hp hn, hread]
    simp only [Bind.bind, Res.bind]
    rw [WinHost.C112_complete env arch none hp hn hsane hsp hca (.pe pe _ recorded none found w' hk hpe hs hf hno (Dumper.afterLast_winPath _))]
    simp [getObjectInfo, hk, Offline.getPePdbObjectInfo, Dumper.getPeObjectInfo, hpe, Dumper.fromPe]

/-- **C136 (several files)** On Windows too: on any number of files but one, the two builds can end in the same ways and with the same files and texts written, when
every input can do without a symbol server or is a PE without a PDB that can be used.  Missing: a PE with one, for which it is false, and, when a symbol server is configured, every PE and PDB. -/
theorem C136_program_several_partial (env : Env) (version : Str) (cpus : Nat) (o : Options) (w : Cache.World) (orders : Orders) (out : Output.World)
    (hl : o.filenames.length ≠ 1) (h : ∀ f ∈ o.filenames, NeedsNoServer env w f ∨ LonePe env w f) (status : Nat) (out' : Output.World) :
    Exits env version cpus o w.disk orders out status out' ↔ WinHost.Exits env version cpus o w orders out status out' := by
  have ht : ∀ {ws : Nat → Cache.World} (_ : ∀ i, WinHost.Meanwhile env w (ws i)) extra config mapping arch,
      WinHost.threads env extra config o.filenames ws orders mapping arch out = threads env extra config o.filenames w.disk orders mapping arch out := by
    intro ws hw extra config mapping arch
    unfold WinHost.threads threads
    congr 1
    funext i
    cases hi : o.filenames[i]? with
    | none => rfl
    | some f =>
      rcases h f (List.mem_of_getElem? hi) with h | h
      · exact parseInput_offline (hw i) config mapping arch h
      · exact h.parse (hw i) config mapping arch
  constructor
  · intro hx
    cases hx with
    | badInfo h => exact .badInfo h
    | acts extra r _ he ha =>
      refine .acts extra r _ he ?_
      generalize hact : actionOf cpus o = a at ha ⊢
      cases ha with
      | list => exact .list
      | single config f hf => rw [hf] at hl; exact absurd rfl hl
      | several config r out' hf hs =>
        have ht := ht (ws := fun _ => w) (fun _ => .start) (some extra) config
        refine .several config (fun _ => w) r out' hf (fun _ => .start) ?_
        cases hs with
        | badOptions m h => exact .badOptions m h
        | badMapping h => exact .badMapping h
        | returned mapping arch m h hr hs => rw [← ht] at hr hs; exact .returned mapping arch m h hr hs
        | crashed mapping arch m h hr hs => rw [← ht] at hr; exact .crashed mapping arch m h hr hs
  · intro hx
    cases hx with
    | badInfo h => exact .badInfo h
    | acts extra r _ he ha =>
      refine .acts extra r _ he ?_
      generalize hact : actionOf cpus o = a at ha ⊢
      cases ha with
      | list => exact .list
      | single config f hf => rw [hf] at hl; exact absurd rfl hl
      | several config ws r out' hf hw hs =>
        have ht := ht hw (some extra) config
        refine .several config r out' hf ?_
        cases hs with
        | badOptions m h => exact .badOptions m h
        | badMapping h => exact .badMapping h
        | returned mapping arch m h hr hs => rw [ht] at hr hs; exact .returned mapping arch m h hr hs
        | crashed mapping arch m h hr hs => rw [ht] at hr; exact .crashed mapping arch m h hr hs

/-- A PE without its PDB, and an ELF file. -/
def dllAndElf : Cache.World := Dumper.exWorld [(str% "C:\\w\\a.dll", .file [3] true), (str% "C:\\w\\b", .file [1] true)]
def mixedOptions : Options := { Run.exOptions [str% "C:\\w\\a.dll", str% "C:\\w\\b"] with numJobs := str% "2", store := some (str% "D:\\s") }
def mixedConfig : Config := { Dumper.exConfig with output := .store (str% "D:\\s"), numJobs := 2 }
def mixedThreads : Threads.Env :=
  WinHost.threads WinHost.winEnv (some []) mixedConfig mixedOptions.filenames (fun _ => dllAndElf) Run.exOrders none (str% "x86_64") Output.emptyWorld
def mixedLast : Threads.Moment :=
  Run.played mixedThreads (WinHost.callsOf WinHost.winEnv.io (some []) mixedConfig.output mixedConfig.checkCfi) Output.emptyWorld (Run.whole Run.exRun)

theorem dllAndElf_sane : WinHost.Sane WinHost.winEnv dllAndElf.disk where
  dirs := fun q es h => by
    simp only [dllAndElf, Dumper.exWorld, WinUtils.diskOf, List.lookup] at h
    repeat' (split at h)
    all_goals cases h
  room := WinHost.winPair_sane.room
  arrivals := WinHost.winPair_sane.arrivals
  cwd := WinHost.winPair_sane.cwd
  home := WinHost.winPair_sane.home

theorem mixed_lone : LonePe WinHost.winEnv dllAndElf (str% "C:\\w\\a.dll") := by
  have hs : WinHost.Configured WinHost.winEnv.home dllAndElf.disk none none :=
    ((WinHost.C110_configured WinHost.winEnv.home dllAndElf.disk none dllAndElf_sane.home).1 _).mp (by decide +kernel)
  have hca : WinHost.SaneCaches WinHost.winEnv none dllAndElf.disk := by
    intro ss h
    have := ((WinHost.C110_configured WinHost.winEnv.home dllAndElf.disk none dllAndElf_sane.home).1 _).mpr h
    rw [show WinHost.getSymServers WinHost.winEnv.home dllAndElf.disk none = .ok none by decide +kernel] at this
    cases this
  have hsp : WinHost.SanePe WinHost.winEnv [3] := by
    intro pe rec hp
    cases hp
    refine ⟨WinHost.winProper_of (by decide), ?_⟩
    intro r hr
    cases hr
    exact .inr ⟨str% "C:\\x/", str% "m.pdb", rfl,
      ⟨str% "C:\\", str% "x/", rfl, .driveRooted 'C' '\\' _ (by decide) (by decide), .inr ⟨str% "x", '/', rfl, by decide⟩⟩, WinHost.winProper_of (by decide)⟩
  have hn : WinProper (str% "a.dll") := WinHost.winProper_of (by decide)
  obtain ⟨k1, k2⟩ := hsp _ _ rfl
  obtain ⟨c1, _⟩ := WinHost.C111_source WinHost.winEnv.net (Dumper.seenPe WinHost.winEnv.parsers) WinHost.winEnv.cwd (str% "C:\\w\\" ++ str% "a.dll") [3] none
    dllAndElf rfl (WinHost.dirOf_exists WinHost.ex_part_drive hn) dllAndElf_sane.cwd k2 k1 dllAndElf_sane.dirs dllAndElf_sane.room dllAndElf_sane.arrivals
    (fun ss h => by cases h)
  obtain ⟨y, hf, hy⟩ := (c1 none dllAndElf).mp rfl
  have hy : y = none := by cases y <;> simp_all
  subst hy
  exact .mk (str% "C:\\w\\") (str% "a.dll") [3] _ _ _ _ WinHost.ex_part_drive hn dllAndElf_sane hca
    (((WinHost.readFile_dir WinHost.winEnv.net.cab dllAndElf.disk WinHost.ex_part_drive hn dllAndElf_sane.dirs).1 [3]).mp rfl)
    hsp rfl rfl hs hf (fun _ _ _ _ h => by cases h)

/-- C136 applied: the build without HTTP can end as this run of the full program, which dumps both files. -/
example : Exits WinHost.winEnv (str% "1.0") 4 mixedOptions dllAndElf.disk Run.exOrders Output.emptyWorld 0 mixedLast.out ∧
    (mixedLast.out.files (str% "D:\\s\\m.pdb\\A1\\m.sym")).isSome ∧ (mixedLast.out.files (str% "D:\\s\\lib.so\\E1\\lib.so.sym")).isSome := by
  refine ⟨(C136_program_several_partial WinHost.winEnv (str% "1.0") 4 mixedOptions dllAndElf Run.exOrders Output.emptyWorld (by decide) ?_ _ _).mpr
    (.acts [] (.ok ()) _ rfl (.several mixedConfig (fun _ => dllAndElf) (.ok ()) _ (by decide) (fun _ => .start)
      (.returned none (str% "x86_64") mixedLast rfl (Run.played_moments (by decide +kernel)) (by decide +kernel)))), by decide +kernel, by decide +kernel⟩
  intro f hf
  have hf : f = str% "C:\\w\\a.dll" ∨ f = str% "C:\\w\\b" := by simpa [mixedOptions, Run.exOptions] using hf
  rcases hf with rfl | rfl
  · exact .inr mixed_lone
  · exact .inl (.inl ⟨[1], rfl, by decide, by decide⟩)

end WinOffline
end DumpSyms
