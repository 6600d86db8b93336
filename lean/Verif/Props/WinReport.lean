import Verif.Proof.WinReport
import Verif.Props.WinCrash
import Verif.Props.Report
import Verif.Props.SeveralSamples
/-!
# C119: what a reported error says on Windows

As C118, with the paths of Windows.
-/
namespace DumpSyms
namespace WinHost
open WinPath
open Cache (World)
open Dumper (Env Config prepare prepare_iff cenv fileNameOnly_no_slash)
open Run (Orders Options Action actionOf exitStatus Infos)
open Output (FileOutput Out IoEnv writeTo writeTo_err)

/-- **C119, reading.** Getting something to write from a file gives an error exactly when one of the described things is wrong. -/
theorem C119_reading (env : Env) (ho : ∀ l, (env.map.order l).Perm l) (config : Config) (pre filename : Str) (hdir : WinDirPart pre)
    (hname : WinProper filename) (hid : ∀ id, config.debugId = some id ∨ config.codeId = some id → WinProper id)
    (w : World) (hsane : Sane env w.disk) (hca : SaneCaches env config.symbolServer w.disk)
    (hpe : ∀ b w1, Contents env config (pre ++ filename) filename w b w1 → SanePe env b ∧ SaneCaches env config.symbolServer w1.disk) (m : Str) :
    (readSingle env config (pre ++ filename) w).1 = .err m ↔ ReadError env config pre filename w m := by
  have hn : getFilename (pre ++ filename) = .ok filename := by
    unfold getFilename
    rw [fileName_dir hdir hname]
  obtain ⟨p1, p2⟩ := prepare_iff ho (c := config)
  constructor
  · intro h
    generalize hg : getFromId env config (pre ++ filename) filename w = r
    obtain ⟨r, w1⟩ := r
    cases r with
    | panic =>
      unfold readSingle at h
      simp only [hn, hg] at h
      cases h
    | err e =>
      have hr : (readSingle env config (pre ++ filename) w).1 = .err e := by
        unfold readSingle
        simp only [hn, hg]
      rw [hr] at h
      cases h
      obtain ⟨id, servers, w', h1, h2, h3, rfl⟩ := (contents_error_iff env config w hdir hname hsane hca hid _).mp (by rw [hg])
      exact .search id servers w' h1 h2 h3
    | ok b =>
      have hcont := (contents_iff env config w hdir hname hsane hid hca b w1).mp hg
      rw [readSingle_eq hdir hname hsane hca hid hcont] at h
      cases hp : prepare env config with
      | panic => rw [hp] at h; cases h
      | err e =>
        rw [hp] at h
        cases h
        rcases (p2 _).mp hp with h | ⟨h1, h2, rfl⟩
        · exact .mapping b w1 _ hcont h
        · exact .arch b w1 hcont h1 h2
      | ok x =>
        obtain ⟨mapping, arch⟩ := x
        rw [hp] at h
        obtain ⟨h1, h2⟩ := (p1 arch).mp ⟨mapping, hp⟩
        exact .input b w1 arch m hcont h1 h2 (input_error_of hdir hname (contents_sane hcont hsane) (hpe b w1 hcont).1 (hpe b w1 hcont).2 h)
  · intro h
    cases h with
    | search id servers w' h1 h2 h3 =>
      have := (contents_error_iff env config w hdir hname hsane hca hid _).mpr ⟨id, servers, w', h1, h2, h3, rfl⟩
      unfold readSingle
      simp only [hn, this]
    | mapping b w1 _ h1 h2 =>
      rw [readSingle_eq hdir hname hsane hca hid h1, (p2 m).mpr (.inl h2)]
    | arch b w1 h1 h2 h3 =>
      rw [readSingle_eq hdir hname hsane hca hid h1, (p2 _).mpr (.inr ⟨h2, h3, rfl⟩)]
    | input b w1 arch _ h1 h2 h3 h4 =>
      obtain ⟨mapping, hp⟩ := (p1 arch).mpr ⟨h2, h3⟩
      rw [readSingle_eq hdir hname hsane hca hid h1, hp]
      exact input_error hdir hname (contents_sane h1 hsane) (hpe b w1 h1).1 (hpe b w1 h1).2 h4 mapping config.emitInlines

/-- The destinations that the options name for a module with the name `last` and the debug id `id`. -/
def Destination (o : Options) (last id : Str) (fo : FileOutput) : Prop :=
  (o.output = none ∧ o.store = none ∧ fo = .stdout) ∨ (o.output = some ['-'] ∧ fo = .stdout) ∨
    (∃ f, o.output = some f ∧ f ≠ ['-'] ∧ fo = .path f) ∨
    ∃ d p, o.store = some d ∧ d ≠ [] ∧ InStore d last id p ∧ fo = .path p

/-- What is said when a module cannot be written: there is no call frame information although there has to be, the directory in the store
cannot be created, or a destination has no room for the text.  For a store that is verbatim, and for a module with a name or an id that Windows does not allow,
only which message it may be. -/
inductive WriteError (io : IoEnv) (o : Options) (info : ObjectInfo) (size : Nat) : Str → Prop
  | cfi : o.checkCfi = true → info.stack = [] → WriteError io o info size (str% "No CFI data")
  | dir (d p parent : Str) : (o.checkCfi = true → info.stack ≠ []) → o.store = some d → d ≠ [] → InStore d info.fileName info.debugId p →
      WinPath.parent p = some parent → io.mkdirs parent = false → WriteError io o info size (str% "create_dir_all")
  | full (fo : FileOutput) : (o.checkCfi = true → info.stack ≠ []) → Destination o info.fileName info.debugId fo →
      io.room fo < size → WriteError io o info size (str% "write")
  | odd (d m : Str) : (o.checkCfi = true → info.stack ≠ []) → o.store = some d → d ≠ [] →
      ¬ (PlainDir d ∧ WinProper info.fileName ∧ WinProper info.debugId) → (m = str% "create_dir_all" ∨ m = str% "write") →
      WriteError io o info size m

theorem store_error {io : IoEnv} {extra : Option (List Str)} {o : Options} {info : ObjectInfo} {w : Output.World} {t : Str}
    (ht : info.display extra = .ok t) (hch : (io.chunks t).flatten = Utf8.encode t) {m : Str}
    (h : (store io extra (.ofOptions o.output o.store) o.checkCfi info w).1 = .err m) : WriteError io o info (Utf8.encode t).length m := by
  have hdest := destinations_of info o.output o.store
  unfold store at h
  split at h
  · rename_i hc
    simp only [ObjectInfo.hasStack, Bool.not_not, Bool.and_eq_true, List.isEmpty_iff] at hc
    cases h
    exact .cfi hc.1 hc.2
  · rename_i hc
    simp only [ObjectInfo.hasStack, Bool.not_not, Bool.and_eq_true, List.isEmpty_iff, not_and] at hc
    simp only [ht] at h
    have hfile : ∀ fo w, (destinations (.ofOptions o.output o.store) info).1 = some fo → (writeTo io (.ok t) fo w).1 = .err m →
        WriteError io o info (Utf8.encode t).length m := by
      intro fo w hd h
      obtain ⟨rfl, h2⟩ := writeTo_err hch h
      refine .full fo hc ((hdest fo).mp (.file ?_)) h2
      generalize Output.Out.ofOptions o.output o.store = out at hd
      cases out with
      | file f => cases hd; exact .inl rfl
      | store d => cases hd
      | fileAndStore f d => cases hd; exact .inr ⟨d, rfl⟩
    cases h2 : (destinations (.ofOptions o.output o.store) info).2 with
    | none =>
      rw [h2] at h
      simp only at h
      cases h1 : (destinations (.ofOptions o.output o.store) info).1 with
      | none => rw [h1] at h; cases h
      | some fo => rw [h1] at h; exact hfile fo _ h1 h
    | some p =>
      rw [h2] at h
      simp only at h
      obtain ⟨dir, hout, hne, hp⟩ := dest_store h2
      have hst : o.store = some dir := by
        unfold Output.Out.ofOptions at hout
        cases h1 : o.output <;> cases h2 : o.store <;> rw [h1, h2] at hout <;> rcases hout with hout | ⟨_, hout⟩ <;> cases hout <;> rfl
      generalize hr : writeStore io (.ok t) p w = r at h
      obtain ⟨r, w'⟩ := r
      cases r with
      | panic => cases h
      | ok u =>
        simp only at h
        cases h1 : (destinations (.ofOptions o.output o.store) info).1 with
        | none => rw [h1] at h; cases h
        | some fo => rw [h1] at h; exact hfile fo _ h1 h
      | err e =>
        simp only [Res.err.injEq] at h
        subst h
        unfold writeStore at hr
        cases hd : WinPath.parent p with
        | none => rw [hd] at hr; cases hr
        | some d =>
          rw [hd] at hr
          simp only at hr
          by_cases hplain : PlainDir dir ∧ WinProper info.fileName ∧ WinProper info.debugId
          · have hin := (inStore_iff hplain.1 hplain.2.1 hplain.2.2).mpr hp
            split at hr
            · obtain ⟨rfl, h3⟩ := writeTo_err hch (by rw [hr])
              exact .full _ hc (.inr (.inr (.inr ⟨dir, p, hst, hne, hin, rfl⟩))) h3
            · rename_i hmk
              simp only [Bool.not_eq_true] at hmk
              cases hr
              exact .dir dir p d hc hst hne hin hd hmk
          · refine .odd dir e hc hst hne hplain ?_
            split at hr
            · exact .inr (writeTo_err hch (by rw [hr])).1
            · cases hr; exact .inl rfl

theorem store_no_dir {io : IoEnv} {extra : Option (List Str)} {out : Out} {checkCfi : Bool} {o : ObjectInfo} {w : Output.World}
    (hcfi : checkCfi = true → o.stack ≠ []) {p d : Str} (hp : (destinations out o).2 = some p) (hd : WinPath.parent p = some d)
    (hm : io.mkdirs d = false) : store io extra out checkCfi o w = (.err (str% "create_dir_all"), w) := by
  have h1 : (checkCfi && !o.hasStack) = false := by
    cases checkCfi with
    | false => rfl
    | true => simpa [ObjectInfo.hasStack] using hcfi rfl
  simp [store, h1, hp, writeStore, hd, hm]

/-- What a process that has one file reports. -/
theorem reports_single {env : Env} {version : Str} {cpus : Nat} {o : Options} {w : World} {orders : Orders} {out : Output.World} {path : Str}
    (hfile : o.filenames = [path]) {c : Config} (hact : actionOf cpus o = .dump c) (m : Str) :
    Reports env version cpus o w orders out m ↔
      (∀ v ∈ o.extraInfo.getD [], Main.InfoLine v) ∧ (singleFile env (some (Infos version o)) c path w out).1 = .err m := by
  constructor
  · intro h
    cases h with
    | mk extra m out' h ha =>
      have hinfo : ∀ v ∈ o.extraInfo.getD [], Main.InfoLine v := by
        intro v hv
        apply Classical.byContradiction
        intro hb
        rw [(Main.C55_rejected version o.extraInfo o.noGenerator).mpr ⟨v, hv, hb⟩] at h
        cases h
      refine ⟨hinfo, ?_⟩
      rw [Run.extra_ok (version := version) hinfo] at h
      cases h
      rw [hact] at ha
      generalize hr : (Res.err m : Res Unit) = r at ha
      cases ha with
      | several config ws r out' hlen hw hs => rw [hfile] at hlen; exact absurd rfl hlen
      | single config g hg => rw [hfile] at hg; cases hg; rfl
  · rintro ⟨hinfo, h⟩
    refine .mk _ m (singleFile env (some (Infos version o)) c path w out).2.2 (Run.extra_ok (version := version) hinfo) ?_
    rw [hact, ← h]
    exact Acts.single c path hfile

theorem readError_same {env : Env} {cpus : Nat} {o : Options} {c c' : Config} (hc : Configures cpus o c) (hc' : Configures cpus o c')
    {pre filename : Str} {w : World} {m : Str} (h : ReadError env c pre filename w m) : ReadError env c' pre filename w m := by
  obtain ⟨r1, r2, r3⟩ := hc.search
  obtain ⟨q1, q2, q3⟩ := hc'.search
  obtain ⟨m1, m2, m3, m4⟩ := hc.mapping
  obtain ⟨k1, k2, k3, k4⟩ := hc'.mapping
  have h1 : c.debugId = c'.debugId := by rw [r2, q2]
  have h2 : c.codeId = c'.codeId := by rw [r3, q3]
  have h3 : c.symbolServer = c'.symbolServer := by rw [r1, q1]
  have h4 : c.arch = c'.arch := by rw [hc.reading.1, hc'.reading.1]
  have h5 : c.mappingVar = c'.mappingVar := by rw [m1, k1]
  have h6 : c.mappingSrc = c'.mappingSrc := by rw [m2, k2]
  have h7 : c.mappingDest = c'.mappingDest := by rw [m3, k3]
  have h8 : c.mappingFile = c'.mappingFile := by rw [m4, k4]
  cases h with
  | search id servers w' e1 e2 e3 => exact .search id servers w' (by rw [← h1, ← h2]; exact e1) (h3 ▸ e2) e3
  | mapping b w1 _ e1 e2 => exact .mapping b w1 m (contents_of h1 h2 h3 e1) (by rw [← h5, ← h6, ← h7, ← h8]; exact e2)
  | arch b w1 e1 e2 e3 => exact .arch b w1 (contents_of h1 h2 h3 e1) (by rw [← h5, ← h6, ← h7, ← h8]; exact e2) (h4 ▸ e3)
  | input b w1 arch _ e1 e2 e3 e4 =>
    exact .input b w1 arch m (contents_of h1 h2 h3 e1) (by rw [← h5, ← h6, ← h7, ← h8]; exact e2) (h4 ▸ e3) (h3 ▸ e4)

/-- What the process says and leaves when reading or writing gives an error with nothing written. -/
theorem reported_of {env : Env} {version : Str} {cpus : Nat} {o : Options} {w : World} {orders : Orders} {out : Output.World} {path : Str}
    (hfile : o.filenames = [path]) (hinfo : ∀ v ∈ o.extraInfo.getD [], Main.InfoLine v) {c : Config} (hact : actionOf cpus o = .dump c) {e : Str}
    (h : (singleFile env (some (Infos version o)) c path w out).1 = .err e ∧ (singleFile env (some (Infos version o)) c path w out).2.2 = out) :
    (∀ m, Reports env version cpus o w orders out m ↔ m = e) ∧
      ∀ code out', Exits env version cpus o w orders out code out' ↔ code = 1 ∧ out' = out := by
  refine ⟨fun m' => ?_, fun code out' => ?_⟩
  · rw [reports_single hfile hact, h.1]
    simp only [Res.err.injEq]
    exact ⟨fun h => h.2.symm, fun h => ⟨hinfo, h.symm⟩⟩
  · rw [exits_single hfile hact, h.1, h.2]
    constructor
    · rintro (⟨⟨v, h1, h2⟩, _⟩ | ⟨_, h1, h2⟩)
      · exact absurd (hinfo v h1) h2
      · exact ⟨h1, h2⟩
    · rintro ⟨h1, h2⟩
      exact .inr ⟨hinfo, h1, h2⟩

/-- **C119, one file.** If one of the described things is wrong, the process says so, ends with status 1, and has written nothing. -/
theorem C119_reported (env : Env) (ho : ∀ l, (env.map.order l).Perm l) (version : Str) (cpus : Nat) (o : Options) (hla : o.listArch = false)
    (pre filename : Str) (hdir : WinDirPart pre) (hname : WinProper filename) (hfile : o.filenames = [pre ++ filename])
    (hid : ∀ id, o.debugId = some id ∨ o.codeId = some id → WinProper id) (hinfo : ∀ v ∈ o.extraInfo.getD [], Main.InfoLine v)
    (w : World) (hsane : Sane env w.disk) (hca : SaneCaches env o.symbolServer w.disk) (orders : Orders) (out : Output.World)
    (config : Config) (hcfg : Configures cpus o config)
    (hpe : ∀ b w1, Contents env config (pre ++ filename) filename w b w1 → SanePe env b ∧ SaneCaches env o.symbolServer w1.disk)
    (m : Str) (h : ReadError env config pre filename w m) :
    (∀ m', Reports env version cpus o w orders out m' ↔ m' = m) ∧
    ∀ code out', Exits env version cpus o w orders out code out' ↔ code = 1 ∧ out' = out := by
  obtain ⟨c, hact, hc⟩ := (C115_config cpus o).2 hla
  obtain ⟨r1, r2, r3⟩ := hc.search
  obtain ⟨q1, q2, q3⟩ := hcfg.search
  have hcont : ∀ {b w1}, Contents env c (pre ++ filename) filename w b w1 → Contents env config (pre ++ filename) filename w b w1 :=
    contents_of (by rw [r2, q2]) (by rw [r3, q3]) (by rw [r1, q1])
  have hr := (C119_reading env ho c pre filename hdir hname (by rw [r2, r3]; exact hid) w hsane (by rw [r1]; exact hca)
    (fun b w1 h => by rw [r1]; exact hpe b w1 (hcont h)) m).mpr (readError_same hcfg hc h)
  refine reported_of hfile hinfo hact ?_
  unfold singleFile
  simp only [hr, and_self]

/-- **C119, one file, the causes.** What the process says is right: one of the described things is wrong with what is read, and nothing
has been written, or the module made cannot be written as described. -/
theorem C119_cause (env : Env) (ho : ∀ l, (env.map.order l).Perm l) (hch : ∀ t, (env.io.chunks t).flatten = Utf8.encode t)
    (version : Str) (cpus : Nat) (o : Options) (hla : o.listArch = false)
    (pre filename : Str) (hdir : WinDirPart pre) (hname : WinProper filename) (hfile : o.filenames = [pre ++ filename])
    (hid : ∀ id, o.debugId = some id ∨ o.codeId = some id → WinProper id)
    (w : World) (hsane : Sane env w.disk) (hca : SaneCaches env o.symbolServer w.disk) (orders : Orders) (out : Output.World)
    (config : Config) (hcfg : Configures cpus o config)
    (hpe : ∀ b w1, Contents env config (pre ++ filename) filename w b w1 → SanePe env b ∧ SaneCaches env o.symbolServer w1.disk)
    (m : Str) (h : Reports env version cpus o w orders out m) :
    (ReadError env config pre filename w m ∧ ∀ code out', Exits env version cpus o w orders out code out' → out' = out) ∨
    ∃ b w1 mapping arch obj name pe peName platform opts w' info t, Contents env config (pre ++ filename) filename w b w1 ∧
      env.parsers.arch o.arch = some arch ∧
      DumpedFrom env b pre filename arch o.symbolServer w1 obj name pe peName platform opts w' ∧
      Mapping.new env.map o.mappingVar o.mappingSrc o.mappingDest o.mappingFile = .ok mapping ∧
      ObjectInfo.fromObject (cenv env platform (if opts then mapping else none) obj) (o.inlines && opts) platform obj name pe peName = .ok info ∧
      info.display (some (Infos version o)) = .ok t ∧ WriteError env.io o info (Utf8.encode t).length m := by
  obtain ⟨c, hact, hc⟩ := (C115_config cpus o).2 hla
  obtain ⟨r1, r2, r3⟩ := hc.search
  obtain ⟨q1, q2, q3⟩ := hcfg.search
  obtain ⟨m1, m2, m3, m4⟩ := hc.mapping
  obtain ⟨n1, n2⟩ := hc.reading
  have hid' : ∀ id, c.debugId = some id ∨ c.codeId = some id → WinProper id := by rw [r2, r3]; exact hid
  have hca' : SaneCaches env c.symbolServer w.disk := by rw [r1]; exact hca
  have hcont : ∀ {b w1}, Contents env c (pre ++ filename) filename w b w1 → Contents env config (pre ++ filename) filename w b w1 :=
    contents_of (by rw [r2, q2]) (by rw [r3, q3]) (by rw [r1, q1])
  have hpe' : ∀ b w1, Contents env c (pre ++ filename) filename w b w1 → SanePe env b ∧ SaneCaches env c.symbolServer w1.disk :=
    fun b w1 h => by rw [r1]; exact hpe b w1 (hcont h)
  obtain ⟨hinfo, hs⟩ := (reports_single hfile hact m).mp h
  by_cases hre : (readSingle env c (pre ++ filename) w).1 = .err m
  · have := (C119_reading env ho c pre filename hdir hname hid' w hsane hca' hpe' m).mp hre
    have hre := readError_same hc hcfg this
    exact .inl ⟨hre, fun code out' he => (((C119_reported env ho version cpus o hla pre filename hdir hname hfile hid hinfo w hsane hca orders out config
      hcfg hpe m hre).2 code out').mp he).2⟩
  right
  generalize hrs : readSingle env c (pre ++ filename) w = y at hre
  obtain ⟨y, w2⟩ := y
  unfold singleFile at hs
  simp only [hrs] at hs
  cases y with
  | panic => cases hs
  | err e => cases hs; exact absurd rfl hre
  | ok info =>
    simp only at hs
    have hn : getFilename (pre ++ filename) = .ok filename := by
      unfold getFilename
      rw [fileName_dir hdir hname]
    generalize hg : getFromId env c (pre ++ filename) filename w = r
    obtain ⟨r, w1⟩ := r
    cases r with
    | panic =>
      unfold readSingle at hrs
      simp only [hn, hg] at hrs
      cases hrs
    | err e =>
      unfold readSingle at hrs
      simp only [hn, hg] at hrs
      cases hrs
    | ok b =>
      have hcc := (contents_iff env c w hdir hname hsane hid' hca' b w1).mp hg
      rw [readSingle_eq hdir hname hsane hca' hid' hcc] at hrs
      cases hp : prepare env c with
      | panic => rw [hp] at hrs; cases hrs
      | err e => rw [hp] at hrs; cases hrs
      | ok x =>
        obtain ⟨mapping, arch⟩ := x
        rw [hp] at hrs
        simp only at hrs
        rw [r1] at hrs
        obtain ⟨hp1, hp2⟩ := Run.prepare_ok.mp hp
        rw [m1, m2, m3, m4] at hp1
        rw [n1] at hp2
        obtain ⟨hpe1, hca1⟩ := hpe b w1 (hcont hcc)
        obtain ⟨obj, name, pe, peName, platform, opts, hd, hx⟩ := C112_sound env arch o.symbolServer hdir hname (contents_sane (hcont hcc) hsane)
          hpe1 hca1 mapping c.emitInlines hrs
        obtain ⟨t, ht⟩ := (ObjectInfo.fromObject_guards (P := True) _ _ _ _ _ _ _ (fun _ _ _ _ _ _ _ _ => trivial)
          (fun _ _ _ _ _ _ _ _ => trivial) (fun _ _ _ => trivial)).gives info hx (some (Infos version o))
        have houtput : c.output = Output.Out.ofOptions o.output o.store := by
          simp only [actionOf, hla, Bool.false_eq_true, if_false, Action.dump.injEq] at hact
          rw [← hact]
        rw [houtput, hc.checkCfi] at hs
        rw [n2] at hx
        exact ⟨b, w1, mapping, arch, obj, name, pe, peName, platform, opts, w2, info, t, hcont hcc, hp2, hd, hp1, hx, ht, store_error ht (hch t) hs⟩

/-- **C119, writing.** A module without call frame information, when that is asked for, and a directory of the store that cannot be created, are
reported, with nothing written. -/
theorem C119_unwritten (env : Env) (version : Str) (cpus : Nat) (o : Options) (hla : o.listArch = false) (path : Str) (hfile : o.filenames = [path])
    (hinfo : ∀ v ∈ o.extraInfo.getD [], Main.InfoLine v) (w : World) (orders : Orders) (out : Output.World)
    (config : Config) (hcfg : actionOf cpus o = .dump config) (info : ObjectInfo) (hread : (readSingle env config path w).1 = .ok info) :
    (o.checkCfi = true → info.stack = [] → (∀ m, Reports env version cpus o w orders out m ↔ m = str% "No CFI data") ∧
      ∀ code out', Exits env version cpus o w orders out code out' ↔ code = 1 ∧ out' = out) ∧
    ((o.checkCfi = true → info.stack ≠ []) → WinProper info.fileName → WinProper info.debugId →
      ∀ d p parent, o.store = some d → d ≠ [] → PlainDir d → InStore d info.fileName info.debugId p → WinPath.parent p = some parent →
      env.io.mkdirs parent = false → (∀ m, Reports env version cpus o w orders out m ↔ m = str% "create_dir_all") ∧
        ∀ code out', Exits env version cpus o w orders out code out' ↔ code = 1 ∧ out' = out) := by
  have hout : config.output = Output.Out.ofOptions o.output o.store ∧ config.checkCfi = o.checkCfi := by
    simp only [actionOf, hla, Bool.false_eq_true, if_false, Action.dump.injEq] at hcfg
    rw [← hcfg]
    exact ⟨rfl, rfl⟩
  have key : ∀ e, store env.io (some (Infos version o)) config.output config.checkCfi info out = (.err e, out) →
      (∀ m, Reports env version cpus o w orders out m ↔ m = e) ∧
        ∀ code out', Exits env version cpus o w orders out code out' ↔ code = 1 ∧ out' = out := by
    intro e he
    refine reported_of hfile hinfo hcfg ?_
    unfold singleFile
    simp only [hread, he, and_self]
  refine ⟨fun h1 h2 => key _ ?_, fun hcfi n1 n2 d p parent hst hd hplain hin hpar hm => key _ ?_⟩
  · rw [hout.2, h1]
    exact C113_no_cfi _ _ _ _ _ h2
  · have hp : symStorePath info d = some p := by
      have := (inStore_iff hplain n1 n2).mp hin
      rw [symStorePath_of_ne hd, this]
    refine store_no_dir (hout.2 ▸ hcfi) (p := p) ?_ hpar hm
    rw [hout.1, hst]
    cases o.output with
    | none => exact hp
    | some f => exact hp

/-- **C119, several files.** A run over several files reports an error exactly when the options are wrong, and says what. -/
theorem C119_several (env : Env) (ho : ∀ l, (env.map.order l).Perm l) (version : Str) (cpus : Nat) (o : Options) (hla : o.listArch = false)
    (hlen : o.filenames.length ≠ 1) (w : World) (orders : Orders) (out : Output.World) (m : Str) :
    Reports env version cpus o w orders out m ↔ (∀ v ∈ o.extraInfo.getD [], Main.InfoLine v) ∧
      (Mapping.OptionError env.map o.mappingVar o.mappingSrc o.mappingDest o.mappingFile m ∨
        Mapping.OptionsFine env.map o.mappingVar o.mappingSrc o.mappingDest o.mappingFile ∧ env.parsers.arch o.arch = none ∧ m = str% "arch") := by
  obtain ⟨c, hact, hc⟩ := (C115_config cpus o).2 hla
  obtain ⟨m1, m2, m3, m4⟩ := hc.mapping
  have hp := (prepare_iff ho (c := c)).2 m
  rw [m1, m2, m3, m4, hc.reading.1] at hp
  rw [← hp]
  constructor
  · intro h
    cases h with
    | mk extra m out' h ha =>
      have hinfo : ∀ v ∈ o.extraInfo.getD [], Main.InfoLine v := by
        intro v hv
        apply Classical.byContradiction
        intro hb
        rw [(Main.C55_rejected version o.extraInfo o.noGenerator).mpr ⟨v, hv, hb⟩] at h
        cases h
      refine ⟨hinfo, ?_⟩
      rw [hact] at ha
      generalize hr : (Res.err m : Res Unit) = r at ha
      cases ha with
      | single config g hg => rw [hg] at hlen; exact absurd rfl hlen
      | several config ws r out' hlen hw hs =>
        cases hs with
        | badOptions m' h => cases hr; exact h
        | badMapping h => cases hr
        | returned mapping arch mo h _ _ => cases hr
        | crashed mapping arch mo h _ _ => cases hr
  · rintro ⟨hinfo, h⟩
    refine .mk _ m out (Run.extra_ok (version := version) hinfo) ?_
    rw [hact]
    exact .several c (fun _ => w) _ _ hlen (fun _ => .start) (.badOptions m h)

/-! ## Samples -/

theorem winCrash_caches (b : Bytes) : SaneCaches winEnv none (winCrashDisk b).disk := by
  intro ss h
  have := ((C110_configured winEnv.home (winCrashDisk b).disk none winPair_sane.home).1 _).mpr h
  have hn : getSymServers winEnv.home (winCrashDisk b).disk none = .ok none := by rfl
  rw [hn] at this
  cases this

theorem winCrash_dir : WinDirPart (str% "C:\\d\\") :=
  ⟨str% "C:\\", str% "d\\", rfl, .driveRooted 'C' '\\' _ (by decide) (by decide), .inr ⟨str% "d", '\\', rfl, by decide⟩⟩

/-- A file of no known format: this is said, and nothing is written. -/
example : (∀ m, Reports winEnv (str% "1.0") 4 winCrashOptions (winCrashDisk [5]) Run.exOrders Output.emptyWorld m ↔ m = str% "Unknown file format") ∧
    ∀ code out', Exits winEnv (str% "1.0") 4 winCrashOptions (winCrashDisk [5]) Run.exOrders Output.emptyWorld code out' ↔
      code = 1 ∧ out' = Output.emptyWorld := by
  obtain ⟨c, hact, hc⟩ := (C115_config 4 winCrashOptions).2 rfl
  have hsane : Sane winEnv (winCrashDisk [5]).disk := winCrash_sane _ (by intro x hx es; simp at hx; subst hx; exact fun h => by cases h)
  have hr : getFromId winEnv c (str% "C:\\d\\" ++ str% "a") (str% "a") (winCrashDisk [5]) = (.ok [5], winCrashDisk [5]) := by
    unfold getFromId
    rw [hc.search.2.1, hc.search.2.2]
    rfl
  have hid : ∀ id, c.debugId = some id ∨ c.codeId = some id → WinProper id := by
    rw [hc.search.2.1, hc.search.2.2]
    rintro id (h | h) <;> cases h
  have hca : SaneCaches winEnv c.symbolServer (winCrashDisk [5]).disk := by rw [hc.search.1]; exact winCrash_caches _
  have hiff := contents_iff (filename := str% "a") winEnv c (winCrashDisk [5]) winCrash_dir (winProper_of (by decide)) hsane hid hca
  obtain ⟨m1, m2, m3, m4⟩ := hc.mapping
  refine C119_reported winEnv (fun l => List.reverse_perm l) (str% "1.0") 4 winCrashOptions rfl (str% "C:\\d\\") (str% "a") winCrash_dir
    (winProper_of (by decide)) rfl (by rintro id (h | h) <;> cases h) (by intro v h; cases h) (winCrashDisk [5])
    hsane (winCrash_caches _) Run.exOrders Output.emptyWorld c hc
    (fun b w1 h => ?_) _ (.input [5] _ (str% "x86_64") _ ((hiff _ _).mp hr) ?_ (by rw [hc.reading.1]; decide) (.format rfl))
  · have h := (hiff b w1).mpr h
    rw [hr] at h
    cases h
    refine ⟨fun pe recorded h => ?_, winCrash_caches _⟩
    cases h
  · rw [m1, m2, m3, m4]
    exact ((Mapping.C117_options winEnv.map (fun l => List.reverse_perm l) none none none none).1).mp ⟨_, rfl⟩

/-- C116 applied to a module named after a share, which crashes when it is put in the store: there is a cause. -/
example : ∃ c, SureCrash winEnv { winCrashOptions with output := none, store := some (str% "D:") } c (str% "C:\\d\\") (str% "a") (winCrashDisk [1, 1]) ∨
    LateCrash winEnv { winCrashOptions with output := none, store := some (str% "D:") } c (str% "C:\\d\\") (str% "a") (winCrashDisk [1, 1]) := by
  obtain ⟨c, hact, hc⟩ := (C115_config 4 { winCrashOptions with output := none, store := some (str% "D:") }).2 rfl
  obtain ⟨out', h⟩ := C116_witness.2.2.2.2.2.2.2.2.2
  have hsane : Sane winEnv (winCrashDisk [1, 1]).disk := winCrash_sane _ (by intro x hx es; simp at hx; subst hx; exact fun h => by cases h)
  refine ⟨c, C116_crash_partial winEnv Run.exSeveral.sha Run.exSeveral.order (str% "1.0") 4 _ rfl (str% "C:\\d\\") (str% "a") winCrash_dir (winProper_of (by decide)) rfl
    (by rintro id (h | h) <;> cases h) ⟨(fun h => by cases h), fun h => by cases h⟩ (winCrashDisk [1, 1]) hsane (winCrash_caches _) Run.exOrders
    Output.emptyWorld c hc (fun b w1 hcont => ?_) out' ((h 101 out').mpr ⟨rfl, rfl⟩)⟩
  have hid : ∀ id, c.debugId = some id ∨ c.codeId = some id → WinProper id := by
    rw [hc.search.2.1, hc.search.2.2]
    rintro id (h | h) <;> cases h
  have hca : SaneCaches winEnv c.symbolServer (winCrashDisk [1, 1]).disk := by rw [hc.search.1]; exact winCrash_caches _
  have hr := (contents_iff (filename := str% "a") winEnv c (winCrashDisk [1, 1]) winCrash_dir (winProper_of (by decide)) hsane hid hca b w1).mpr hcont
  have he : getFromId winEnv c (str% "C:\\d\\" ++ str% "a") (str% "a") (winCrashDisk [1, 1]) = (.ok [1, 1], winCrashDisk [1, 1]) := by
    unfold getFromId
    rw [hc.search.2.1, hc.search.2.2]
    rfl
  rw [he] at hr
  cases hr
  exact ⟨(fun pe recorded h => by cases h), winCrash_caches _⟩

/-- Other errors. -/
example : Reports winEnv (str% "1.0") 4 winCrashOptions (winCrashDisk [1, 9]) Run.exOrders Output.emptyWorld (str% "elf") ∧
    Reports winEnv (str% "1.0") 4 { winCrashOptions with arch := str% "x86" } (winCrashDisk [4]) Run.exOrders Output.emptyWorld
      (str% "Cannot find a valid object for architecture x86 in file a") ∧
    Reports winEnv (str% "1.0") 4 { winCrashOptions with debugId := some (str% "A1") } (winCrashDisk [1]) Run.exOrders Output.emptyWorld
      (str% "Impossible to get file a with id A1") ∧
    Reports { winEnv with io := { Output.fullDisk with capacity := 16 } } (str% "1.0") 4 winCrashOptions (winCrashDisk [1]) Run.exOrders
      Output.emptyWorld (str% "write") ∧
    Reports { winEnv with io := { Output.goodDisk with mkdirs := fun _ => false } } (str% "1.0") 4 winCrashOptions (winCrashDisk [1]) Run.exOrders
      Output.emptyWorld (str% "create_dir_all") := by
  refine ⟨?_, ?_, ?_, ?_, ?_⟩ <;>
    exact (reports_single (path := str% "C:\\d\\a") rfl rfl _).mpr ⟨(by intro v h; cases h), by decide +kernel⟩

end WinHost
end DumpSyms
