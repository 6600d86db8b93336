import Verif.Model.WinOffline
import Verif.Props.WinDownloads
import Verif.Props.WinJobs
/-!
# C136: a build without HTTP, on Windows
-/
namespace DumpSyms
namespace WinOffline
open Dumper (Env Config prepare)
open Run (Options Orders actionOf)

theorem getObjectInfo_same (env : Env) {buf : Bytes} (path filename : Str) (mapping : Option (List Mapping.Generator)) (arch : Str)
    (symbolServer : Option Str) (inlines : Bool) (w : Cache.World) (h : env.parsers.peek buf ≠ .pe) :
    WinHost.getObjectInfo env buf path filename mapping arch symbolServer inlines w =
      (getObjectInfo env buf path filename mapping arch inlines w.disk, w) := by
  unfold WinHost.getObjectInfo getObjectInfo
  cases hk : env.parsers.peek buf with
  | pe => exact absurd hk h
  | elf => rfl
  | pdb => rfl
  | machO => rfl
  | other => rfl

/-- **C136, one file, partial (the claim is false for PE files, see `C136_witness`).** On Windows a build without HTTP does with a file given by its path what
the full build does, unless it is a PE. -/
theorem C136_same_partial (env : Env) (extra : Option (List Str)) (config : Config) (path : Str) (w : Cache.World) (out : Output.World)
    (h1 : config.debugId = none) (h2 : config.codeId = none) (hpe : ∀ b, WinHost.readFile env.net.cab w.disk path = .ok b → env.parsers.peek b ≠ .pe) :
    WinHost.singleFile env extra config path w out =
      ((singleFile env extra config path w.disk out).1, w, (singleFile env extra config path w.disk out).2) := by
  have hread : WinHost.readSingle env config path w = (readSingle env config path w.disk, w) := by
    unfold WinHost.readSingle readSingle WinHost.getFromId getFromId
    rw [h1, h2]
    cases hf : WinHost.getFilename path with
    | err m => rfl
    | panic => rfl
    | ok filename =>
      cases hr : WinHost.readFile env.net.cab w.disk path with
      | err m => simp [Bind.bind, Res.bind]
      | panic => simp [Bind.bind, Res.bind]
      | ok b =>
        cases hp : prepare env config with
        | err m => simp [Bind.bind, Res.bind]
        | panic => simp [Bind.bind, Res.bind]
        | ok x =>
          simp only [Option.or, Bind.bind, Res.bind]
          exact getObjectInfo_same env path filename x.1 x.2 config.symbolServer config.emitInlines w (hpe b hr)
  unfold WinHost.singleFile singleFile
  rw [hread]
  cases readSingle env config path w.disk <;> rfl

/-- **C136, PE files.** On Windows a build without HTTP dumps a PE alone, also if its PDB is beside it. -/
theorem C136_pe (env : Env) (config : Config) {pre filename : Str} (d : Disk) (hp : WinDirPart pre) (hn : WinProper filename)
    (hd : ∀ q es, d q = some (.dir es) → ∀ e ∈ es, WinProper e) {b : Bytes} (hb : WinHost.PathHolds env.net.cab d (pre ++ filename) b)
    (hk : env.parsers.peek b = .pe) {pe : ObjInput} {recorded : Option Str} (hpe : env.parsers.pe b = some (pe, recorded))
    {name : Str} (hname : AfterLast '\\' (recorded.getD filename) name) {mapping : Option (List Mapping.Generator)} {arch : Str}
    (hm : Mapping.new env.map config.mappingVar config.mappingSrc config.mappingDest config.mappingFile = .ok mapping)
    (ha : env.parsers.arch config.arch = some arch) :
    readSingle env config (pre ++ filename) d = Dumper.fromObject env pe name none (some filename) .win none false := by
  have hread : WinHost.readFile env.net.cab d (pre ++ filename) = .ok b := ((WinHost.readFile_dir env.net.cab d hp hn hd).1 b).mpr hb
  have hprep : prepare env config = .ok (mapping, arch) := by
    unfold prepare
    rw [hm]
    simp [Bind.bind, Res.bind, ha]
  have hwin : Dumper.winPathFileName (recorded.getD filename) = name := (Dumper.afterLast_winPath _).unique hname
  unfold readSingle getFromId
  rw [WinHost.getFilename, WinHost.fileName_dir hp hn, hread, hprep]
  simp only [Bind.bind, Res.bind, getObjectInfo, hk, Offline.getPePdbObjectInfo, Dumper.getPeObjectInfo, hpe, Dumper.fromPe, hwin]

/-- **C136, PE files without a PDB.** If the full build finds no PDB that it can use, the two builds do the same. -/
theorem C136_pe_alone (env : Env) (config : Config) {pre filename : Str} (w : Cache.World) (hp : WinDirPart pre) (hn : WinProper filename)
    (hsane : WinHost.Sane env w.disk) (hca : WinHost.SaneCaches env config.symbolServer w.disk) (h1 : config.debugId = none) (h2 : config.codeId = none)
    {b : Bytes} (hb : WinHost.PathHolds env.net.cab w.disk (pre ++ filename) b) (hsp : WinHost.SanePe env b) (hk : env.parsers.peek b = .pe)
    {pe : ObjInput} {recorded : Option Str} (hpe : env.parsers.pe b = some (pe, recorded)) {mapping : Option (List Mapping.Generator)} {arch : Str}
    (hm : Mapping.new env.map config.mappingVar config.mappingSrc config.mappingDest config.mappingFile = .ok mapping)
    (ha : env.parsers.arch config.arch = some arch) {servers : Option (List Cache.Server)} {found : Option (Bytes × Str)} {w' : Cache.World}
    (hs : WinHost.Configured env.home w.disk config.symbolServer servers)
    (hf : WinHost.PdbFor env.net env.cwd (pre ++ filename) pe.debugId servers w recorded found w')
    (hno : ∀ b n o fs, found = some (b, n) → env.parsers.pdb b = .ok o → o.functions ≠ .ok fs) :
    WinHost.readSingle env config (pre ++ filename) w = (readSingle env config (pre ++ filename) w.disk, w') := by
  have hread : WinHost.readFile env.net.cab w.disk (pre ++ filename) = .ok b := ((WinHost.readFile_dir env.net.cab w.disk hp hn hsane.dirs).1 b).mpr hb
  have hprep : prepare env config = .ok (mapping, arch) := by
    unfold prepare
    rw [hm]
    simp [Bind.bind, Res.bind, ha]
  rw [C136_pe env config w.disk hp hn hsane.dirs hb hk hpe (Dumper.afterLast_winPath _) hm ha]
  unfold WinHost.readSingle WinHost.getFromId
  rw [WinHost.getFilename, WinHost.fileName_dir hp hn, h1, h2]
  simp only [Option.or, hread, hprep]
  rw [WinHost.C112_complete env arch config.symbolServer hp hn hsane hsp hca
    (.pe pe _ recorded servers found w' hk hpe hs hf hno (Dumper.afterLast_winPath _))]
  simp

/-- An input that both builds treat alike: it can be read at the start and is neither a PE nor a PDB file; or no symbol server is configured
and it is not a PE file. -/
def NeedsNoServer (env : Env) (w : Cache.World) (f : Str) : Prop :=
  (∃ b, WinHost.readFile env.net.cab w.disk f = .ok b ∧ env.parsers.peek b ≠ .pe ∧ env.parsers.peek b ≠ .pdb) ∨
  ((∀ servers, WinHost.getSymServers env.home w.disk none ≠ .ok (some servers)) ∧
    ∀ b, WinHost.readFile env.net.cab w.disk f = .ok b → env.parsers.peek b ≠ .pe)

theorem NeedsNoServer.notPe {env : Env} {w : Cache.World} {f : Str} (h : NeedsNoServer env w f) {b : Bytes}
    (hb : WinHost.readFile env.net.cab w.disk f = .ok b) : env.parsers.peek b ≠ .pe := by
  rcases h with ⟨b', h1, h2, _⟩ | ⟨_, h⟩
  · rw [h1] at hb; cases hb; exact h2
  · exact h b hb

theorem parseInput_offline {env : Env} {w w' : Cache.World} (hw : WinHost.Meanwhile env w w') (config : Config) (mapping : Option (List Mapping.Generator))
    (arch : Str) {f : Str} (h : NeedsNoServer env w f) :
    (WinHost.parseInput env config mapping arch f w').1 = parseInput env config mapping arch f w.disk := by
  have h1 : (WinHost.parseInput env config mapping arch f w').1 = (WinHost.parseInput env config mapping arch f w).1 := by
    rcases h with ⟨b, h1, h2, h3⟩ | ⟨hno, _⟩
    · exact WinHost.C131_other_formats_partial hw config mapping arch f h1 h2 h3
    · exact WinHost.C131_no_server_partial hw hno config mapping arch f
  rw [h1]
  unfold WinHost.parseInput parseInput
  cases hf : WinHost.getFilename f with
  | err m => rfl
  | panic => rfl
  | ok filename =>
    cases hr : WinHost.readFile env.net.cab w.disk f with
    | err m => simp [Bind.bind, Res.bind]
    | panic => simp [Bind.bind, Res.bind]
    | ok b =>
      simp only [Bind.bind, Res.bind]
      rw [getObjectInfo_same env f filename mapping arch none config.emitInlines w (h.notPe hr)]

theorem threads_offline {env : Env} (extra : Option (List Str)) (config : Config) {files : List Str} {w : Cache.World} {ws : Nat → Cache.World}
    (hw : ∀ i, WinHost.Meanwhile env w (ws i)) (h : ∀ f ∈ files, NeedsNoServer env w f) (orders : Orders)
    (mapping : Option (List Mapping.Generator)) (arch : Str) (out : Output.World) :
    WinHost.threads env extra config files ws orders mapping arch out = threads env extra config files w.disk orders mapping arch out := by
  unfold WinHost.threads threads
  congr 1
  funext i
  cases hi : files[i]? with
  | none => rfl
  | some f => exact parseInput_offline (hw i) config mapping arch (h f (List.mem_of_getElem? hi))

theorem several_offline {env : Env} {extra : Option (List Str)} {config : Config} {files : List Str} {w : Cache.World} {ws : Nat → Cache.World}
    (hw : ∀ i, WinHost.Meanwhile env w (ws i)) (h : ∀ f ∈ files, NeedsNoServer env w f) {orders : Orders} {out : Output.World} {r : Res Unit}
    {out' : Output.World} :
    WinHost.SeveralFiles env extra config files ws orders out r out' ↔ SeveralFiles env extra config files w.disk orders out r out' := by
  have ht := fun mapping arch => threads_offline extra config hw h orders mapping arch out
  constructor
  · intro hs
    cases hs with
    | badOptions m h => exact .badOptions m h
    | badMapping h => exact .badMapping h
    | returned mapping arch m h hr hs => rw [ht] at hr hs; exact .returned mapping arch m h hr hs
    | crashed mapping arch m h hr hs => rw [ht] at hr; exact .crashed mapping arch m h hr hs
  · intro hs
    cases hs with
    | badOptions m h => exact .badOptions m h
    | badMapping h => exact .badMapping h
    | returned mapping arch m h hr hs => rw [← ht] at hr hs; exact .returned mapping arch m h hr hs
    | crashed mapping arch m h hr hs => rw [← ht] at hr; exact .crashed mapping arch m h hr hs

/-- **C136, the whole program.** On Windows, built without HTTP, the program can end in exactly the ways the full program can, with the same exit status and the
same files and texts written, when no id is given and every input can do without a symbol server.  Missing: PE files (`C136_witness`), and PDB files
when a symbol server is configured, whose PE may be downloaded meanwhile by another worker. -/
theorem C136_program_partial (env : Env) (version : Str) (cpus : Nat) (o : Options) (w : Cache.World) (orders : Orders) (out : Output.World)
    (h1 : o.debugId = none) (h2 : o.codeId = none) (h : ∀ f ∈ o.filenames, NeedsNoServer env w f) (status : Nat) (out' : Output.World) :
    Exits env version cpus o w.disk orders out status out' ↔ WinHost.Exits env version cpus o w orders out status out' := by
  have hc : ∀ config, actionOf cpus o = .dump config → config.debugId = none ∧ config.codeId = none := by
    intro config hc
    unfold actionOf at hc
    split at hc
    · cases hc
    · cases hc; exact ⟨h1, h2⟩
  have hone : ∀ extra config f, actionOf cpus o = .dump config → o.filenames = [f] →
      WinHost.singleFile env extra config f w out =
        ((singleFile env extra config f w.disk out).1, w, (singleFile env extra config f w.disk out).2) := by
    intro extra config f ha hf
    exact C136_same_partial env extra config f w out (hc config ha).1 (hc config ha).2
      fun b hb => (h f (by rw [hf]; simp)).notPe hb
  constructor
  · intro hx
    cases hx with
    | badInfo h => exact .badInfo h
    | acts extra r _ he ha =>
      refine .acts extra r _ he ?_
      generalize hact : actionOf cpus o = a at ha ⊢
      cases ha with
      | list => exact .list
      | single config f hf =>
        have := WinHost.Acts.single (env := env) (extra := some extra) (w := w) (orders := orders) (out := out) config f hf
        rw [hone (some extra) config f hact hf] at this
        exact this
      | several config r out' hf hs => exact .several config (fun _ => w) r out' hf (fun _ => .start) ((several_offline (fun _ => .start) h).mpr hs)
  · intro hx
    cases hx with
    | badInfo h => exact .badInfo h
    | acts extra r _ he ha =>
      refine .acts extra r _ he ?_
      generalize hact : actionOf cpus o = a at ha ⊢
      cases ha with
      | list => exact .list
      | single config f hf =>
        have := Acts.single (env := env) (extra := some extra) (d := w.disk) (orders := orders) (out := out) config f hf
        rw [hone (some extra) config f hact hf]
        exact this
      | several config ws r out' hf hw hs => exact .several config r out' hf ((several_offline hw h).mp hs)

/-- **C136 is false of PE files.** The PDB beside a PE is used by the full build only; and an id that is given makes the full build look for the file in
the caches, and is ignored by the other. -/
theorem C136_witness :
    ((WinHost.readSingle WinHost.winEnv Dumper.exConfig (str% "C:\\w\\a.dll") WinHost.winPair).1.map fun m => m.symbols.length) = .ok 1 ∧
    ((readSingle WinHost.winEnv Dumper.exConfig (str% "C:\\w\\a.dll") WinHost.winPair.disk).map fun m => m.symbols.length) = .ok 0 ∧
    (∃ e, (WinHost.readSingle WinHost.winEnv { Dumper.exConfig with debugId := some (str% "B7") } (str% "C:\\w\\m.pdb") WinHost.winPair).1 = .err e) ∧
    ((readSingle WinHost.winEnv { Dumper.exConfig with debugId := some (str% "B7") } (str% "C:\\w\\m.pdb") WinHost.winPair.disk).map fun m => m.debugId) =
      .ok (str% "A1") := by
  refine ⟨?_, ?_, ⟨_, rfl⟩, ?_⟩ <;> decide +kernel

/-! ## Examples -/

/-- A PDB is dumped by both builds alike. -/
example : WinHost.singleFile WinHost.winEnv none Dumper.exConfig (str% "C:\\w\\m.pdb") WinHost.winPair Output.emptyWorld =
    ((singleFile WinHost.winEnv none Dumper.exConfig (str% "C:\\w\\m.pdb") WinHost.winPair.disk Output.emptyWorld).1, WinHost.winPair,
      (singleFile WinHost.winEnv none Dumper.exConfig (str% "C:\\w\\m.pdb") WinHost.winPair.disk Output.emptyWorld).2) ∧
    (singleFile WinHost.winEnv none Dumper.exConfig (str% "C:\\w\\m.pdb") WinHost.winPair.disk Output.emptyWorld).1 = .ok () := by
  refine ⟨C136_same_partial _ _ _ _ _ _ rfl rfl fun b hb => ?_, by decide +kernel⟩
  cases hb.symm.trans (show _ = Res.ok [2] by decide +kernel)
  decide

/-- The PE is dumped alone. -/
example : readSingle WinHost.winEnv Dumper.exConfig (str% "C:\\w\\" ++ str% "a.dll") WinHost.winPair.disk =
    Dumper.fromObject WinHost.winEnv (Dumper.exObj .pe (str% "A1") (str% "x86") none) (str% "x/m.pdb") none (some (str% "a.dll")) .win none false :=
  C136_pe WinHost.winEnv Dumper.exConfig WinHost.winPair.disk WinHost.ex_part_drive (WinHost.winProper_of (by decide)) WinHost.winPair_sane.dirs
    (((WinHost.readFile_dir WinHost.winEnv.net.cab WinHost.winPair.disk WinHost.ex_part_drive (WinHost.winProper_of (by decide)) WinHost.winPair_sane.dirs).1 [3]).mp rfl)
    rfl rfl ⟨by decide, str% "C:\\", rfl, .inr rfl⟩ (mapping := none) (arch := str% "x86_64") rfl rfl

/-- A PE and nothing else. -/
def loneDll : Cache.World := Dumper.exWorld [(str% "C:\\w\\a.dll", .file [3] true)]

theorem loneDll_sane : WinHost.Sane WinHost.winEnv loneDll.disk where
  dirs := fun q es h => by
    simp only [loneDll, Dumper.exWorld, WinUtils.diskOf, List.lookup] at h
    split at h <;> cases h
  room := WinHost.winPair_sane.room
  arrivals := WinHost.winPair_sane.arrivals
  cwd := WinHost.winPair_sane.cwd
  home := WinHost.winPair_sane.home

/-- Without a PDB the PE is dumped by both builds alike. -/
example : WinHost.readSingle WinHost.winEnv Dumper.exConfig (str% "C:\\w\\" ++ str% "a.dll") loneDll =
    (readSingle WinHost.winEnv Dumper.exConfig (str% "C:\\w\\" ++ str% "a.dll") loneDll.disk, loneDll) ∧
    Dumper.headOf (readSingle WinHost.winEnv Dumper.exConfig (str% "C:\\w\\" ++ str% "a.dll") loneDll.disk) =
      .ok (str% "m.pdb", str% "A1", str% "x86", .win) := by
  have hs : WinHost.Configured WinHost.winEnv.home loneDll.disk none none :=
    ((WinHost.C110_configured WinHost.winEnv.home loneDll.disk none loneDll_sane.home).1 _).mp (by decide +kernel)
  have hca : WinHost.SaneCaches WinHost.winEnv none loneDll.disk := by
    intro ss h
    have := ((WinHost.C110_configured WinHost.winEnv.home loneDll.disk none loneDll_sane.home).1 _).mpr h
    rw [show WinHost.getSymServers WinHost.winEnv.home loneDll.disk none = .ok none by decide +kernel] at this
    cases this
  have hsp : WinHost.SanePe WinHost.winEnv [3] := by
    intro pe rec hp
    cases hp
    refine ⟨WinHost.winProper_of (by decide), ?_⟩
    intro r hr
    cases hr
    exact .inr ⟨str% "C:\\x/", str% "m.pdb", rfl,
      ⟨str% "C:\\", str% "x/", rfl, .driveRooted 'C' '\\' _ (by decide) (by decide), .inr ⟨str% "x", '/', rfl, by decide⟩⟩, WinHost.winProper_of (by decide)⟩
  have hn : WinProper (str% "a.dll") := WinHost.winProper_of (by decide)
  obtain ⟨k1, k2⟩ := hsp _ _ rfl
  obtain ⟨c1, _⟩ := WinHost.C111_source WinHost.winEnv.net (Dumper.seenPe WinHost.winEnv.parsers) WinHost.winEnv.cwd (str% "C:\\w\\" ++ str% "a.dll") [3] none
    loneDll rfl (WinHost.dirOf_exists WinHost.ex_part_drive hn) loneDll_sane.cwd k2 k1 loneDll_sane.dirs loneDll_sane.room loneDll_sane.arrivals
    (fun ss h => by cases h)
  obtain ⟨y, hf, hy⟩ := (c1 none loneDll).mp rfl
  have hy : y = none := by cases y <;> simp_all
  subst hy
  refine ⟨C136_pe_alone WinHost.winEnv Dumper.exConfig loneDll WinHost.ex_part_drive hn loneDll_sane hca rfl rfl
    (((WinHost.readFile_dir WinHost.winEnv.net.cab loneDll.disk WinHost.ex_part_drive hn loneDll_sane.dirs).1 [3]).mp rfl)
    hsp rfl rfl (mapping := none) (arch := str% "x86_64") rfl rfl hs hf (fun _ _ _ _ h => by cases h), by decide⟩

/-- The run on an ELF file and a Mach-O file of `Props/WinJobs`, by a program built without HTTP. -/
example : Exits WinHost.winEnv2 (str% "1.0") 4 (WinHost.jobOptions false) WinHost.winDisk3.disk Run.exOrders Output.emptyWorld 0 (WinHost.jobLast false).out ∧
    ((WinHost.jobLast false).out.files (str% "D:\\c\\D1\\c.sym")).isSome := by
  refine ⟨(C136_program_partial WinHost.winEnv2 _ _ _ WinHost.winDisk3 _ _ rfl rfl ?_ _ _).mpr WinHost.jobRun_exits, by decide +kernel⟩
  intro f hf
  have hf : f = str% "C:\\d\\a" ∨ f = str% "C:\\d\\c" := by
    simpa [WinHost.jobOptions] using hf
  rcases hf with rfl | rfl
  · exact .inl ⟨_, rfl, by decide, by decide⟩
  · exact .inl ⟨_, rfl, by decide, by decide⟩

end WinOffline
end DumpSyms
