import Verif.Model.Offline
import Verif.Props.Process
/-!
# C88: a build without HTTP
-/
namespace DumpSyms
namespace Offline
open Dumper Path

theorem getObjectInfo_same (env : Env) {buf : Bytes} (path filename : Str) (mapping : Option (List Mapping.Generator)) (arch : Str)
    (symbolServer : Option Str) (inlines : Bool) (w : Cache.World) (h : env.parsers.peek buf ≠ .pe) :
    Dumper.getObjectInfo env buf path filename mapping arch symbolServer inlines w =
      (getObjectInfo env buf path filename mapping arch inlines w.disk, w) := by
  unfold Dumper.getObjectInfo getObjectInfo
  cases hk : env.parsers.peek buf with
  | pe => exact absurd hk h
  | elf => rfl
  | pdb => rfl
  | machO => rfl
  | other => rfl

/-- **C88, partial (the claim is false for PE files, see `C88_witness`).** A build without HTTP does with a file given by its path what
the full build does, unless it is a PE. -/
theorem C88_same_partial (env : Env) (extra : Option (List Str)) (config : Config) (path : Str) (w : Cache.World) (out : Output.World)
    (h1 : config.debugId = none) (h2 : config.codeId = none) (hpe : ∀ b, Files.readFile env.net.cab w.disk path = .ok b → env.parsers.peek b ≠ .pe) :
    Dumper.singleFile env extra config path w out =
      ((singleFile env extra config path w.disk out).1, w, (singleFile env extra config path w.disk out).2) := by
  have hread : Dumper.readSingle env config path w = (readSingle env config path w.disk, w) := by
    unfold Dumper.readSingle readSingle Dumper.getFromId getFromId
    rw [h1, h2]
    cases hf : Utils.getFilename path with
    | err m => rfl
    | panic => rfl
    | ok filename =>
      cases hr : Files.readFile env.net.cab w.disk path with
      | err m => simp [Bind.bind, Res.bind]
      | panic => simp [Bind.bind, Res.bind]
      | ok b =>
        cases hp : prepare env config with
        | err m => simp [Bind.bind, Res.bind]
        | panic => simp [Bind.bind, Res.bind]
        | ok x =>
          simp only [Option.or, Bind.bind, Res.bind]
          exact getObjectInfo_same env path filename x.1 x.2 config.symbolServer config.emitInlines w (hpe b hr)
  unfold Dumper.singleFile singleFile
  rw [hread]
  cases readSingle env config path w.disk <;> rfl

/-- **C88, PE files.** A build without HTTP dumps a PE alone, also if its PDB is beside it. -/
theorem C88_pe (env : Env) (config : Config) {pre filename : Str} (d : Disk) (hp : DirPart pre) (hn : ProperComp filename)
    (hd : ∀ q es, d q = some (.dir es) → ∀ e ∈ es, ProperComp e) {b : Bytes} (hb : PathHolds env.net.cab d (pre ++ filename) b)
    (hk : env.parsers.peek b = .pe) {pe : ObjInput} {recorded : Option Str} (hpe : env.parsers.pe b = some (pe, recorded))
    {name : Str} (hname : AfterLast '\\' (recorded.getD filename) name) {mapping : Option (List Mapping.Generator)} {arch : Str}
    (hm : Mapping.new env.map config.mappingVar config.mappingSrc config.mappingDest config.mappingFile = .ok mapping)
    (ha : env.parsers.arch config.arch = some arch) :
    readSingle env config (pre ++ filename) d = fromObject env pe name none (some filename) .win none false := by
  have hread : Files.readFile env.net.cab d (pre ++ filename) = .ok b :=
    ((C77_read_any env.net.cab d (pre ++ filename) (fun _ _ _ => ⟨pre, filename, rfl, hp, hn⟩) hd).1 b).mpr hb
  have hprep : prepare env config = .ok (mapping, arch) := by
    unfold prepare
    rw [hm]
    simp [Bind.bind, Res.bind, ha]
  have hwin : winPathFileName (recorded.getD filename) = name := (afterLast_winPath _).unique hname
  unfold readSingle getFromId
  rw [Utils.getFilename, fileName_dirPart hp hn, hread, hprep]
  simp only [Bind.bind, Res.bind, getObjectInfo, hk, getPePdbObjectInfo, getPeObjectInfo, hpe, fromPe, hwin]

/-- **C88, PE files without a PDB.** If the full build finds no PDB that it can use, the two builds do the same. -/
theorem C88_pe_alone (env : Env) (config : Config) {pre filename : Str} (w : Cache.World) (hp : DirPart pre) (hn : ProperComp filename)
    (hsane : Sane env w.disk) (h1 : config.debugId = none) (h2 : config.codeId = none) {b : Bytes}
    (hb : PathHolds env.net.cab w.disk (pre ++ filename) b) (hsp : SanePe env b) (hk : env.parsers.peek b = .pe)
    {pe : ObjInput} {recorded : Option Str} (hpe : env.parsers.pe b = some (pe, recorded)) {mapping : Option (List Mapping.Generator)} {arch : Str}
    (hm : Mapping.new env.map config.mappingVar config.mappingSrc config.mappingDest config.mappingFile = .ok mapping)
    (ha : env.parsers.arch config.arch = some arch) {servers : Option (List Cache.Server)} {found : Option (Bytes × Str)} {w' : Cache.World}
    (hs : Cache.Configured env.home w.disk config.symbolServer servers)
    (hf : WinUtils.PdbFor env.net env.cwd (pre ++ filename) pe.debugId servers w recorded found w')
    (hno : ∀ b n o fs, found = some (b, n) → env.parsers.pdb b = .ok o → o.functions ≠ .ok fs) :
    Dumper.readSingle env config (pre ++ filename) w = (readSingle env config (pre ++ filename) w.disk, w') := by
  have hread : Files.readFile env.net.cab w.disk (pre ++ filename) = .ok b :=
    ((C77_read_any env.net.cab w.disk (pre ++ filename) (fun _ _ _ => ⟨pre, filename, rfl, hp, hn⟩) hsane.dirs).1 b).mpr hb
  have hprep : prepare env config = .ok (mapping, arch) := by
    unfold prepare
    rw [hm]
    simp [Bind.bind, Res.bind, ha]
  rw [C88_pe env config w.disk hp hn hsane.dirs hb hk hpe (afterLast_winPath _) hm ha]
  unfold Dumper.readSingle Dumper.getFromId
  rw [Utils.getFilename, fileName_dirPart hp hn, h1, h2]
  simp only [Option.or, hread, hprep]
  rw [C81_complete env arch config.symbolServer hp hn hsane hsp (.pe pe _ recorded servers found w' hk hpe hs hf hno (afterLast_winPath _))]
  simp

/-! ## Witnesses and examples -/

/-- A PE with its PDB beside it. -/
def peAndPdb : Disk := WinUtils.diskOf [(str% "/d/m.exe", .file [3] true), (str% "/d/m.pdb", .file [2] true)]

/-- **C88 is false**: the full build dumps the functions of the PDB beside the PE (no server is needed), the other one dumps no function.  And the
full build refuses an id that it cannot find, the other one dumps the file at the path. -/
theorem C88_witness :
    ((Dumper.readSingle exEnv exConfig (str% "/d/m.exe") { disk := peAndPdb, log := [] }).1.map fun m => m.symbols.length) = .ok 1 ∧
    ((readSingle exEnv exConfig (str% "/d/m.exe") peAndPdb).map fun m => m.symbols.length) = .ok 0 ∧
    (∃ e, (Dumper.readSingle exEnv { exConfig with debugId := some (str% "B7") } (str% "/d/m.pdb") { disk := peAndPdb, log := [] }).1 = .err e) ∧
    ((readSingle exEnv { exConfig with debugId := some (str% "B7") } (str% "/d/m.pdb") peAndPdb).map fun m => m.debugId) = .ok (str% "A1") := by
  refine ⟨?_, ?_, ⟨_, rfl⟩, ?_⟩ <;> decide +kernel

/-- A PDB is dumped by both builds alike. -/
example : Dumper.singleFile exEnv none exConfig (str% "/d/m.pdb") { disk := peAndPdb, log := [] } Output.emptyWorld =
    ((singleFile exEnv none exConfig (str% "/d/m.pdb") peAndPdb Output.emptyWorld).1, { disk := peAndPdb, log := [] },
      (singleFile exEnv none exConfig (str% "/d/m.pdb") peAndPdb Output.emptyWorld).2) :=
  C88_same_partial exEnv none exConfig _ _ _ rfl rfl (by
    intro b h
    have : Files.readFile exEnv.net.cab peAndPdb (str% "/d/m.pdb") = .ok [2] := by rfl
    rw [show ({ disk := peAndPdb, log := [] } : Cache.World).disk = peAndPdb from rfl, this] at h
    cases h
    decide)

/-- The library's defaults differ from those of the program: unwinding information is required and inlined calls are given. -/
example (out : Output.Out) : (withOutput (str% "aarch64") out).checkCfi = true ∧ (withOutput (str% "aarch64") out).emitInlines = true ∧
    (withOutput (str% "aarch64") out).arch = str% "arm64" ∧
    ∃ o, Cli.parse (Cli.compileTimeArch (str% "aarch64")) [str% "a"] = .ok o ∧ o.checkCfi = false ∧ o.inlines = false ∧ o.arch = str% "arm64" :=
  ⟨rfl, rfl, rfl, _, rfl, rfl, rfl, rfl⟩

end Offline
end DumpSyms
