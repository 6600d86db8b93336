import Verif.Proof.WinCrash
import Verif.Props.WinExit
import Verif.Props.Crash
/-!
# C116: when a run on one file crashes on Windows

A run that goes wrong should report an error, with status 1.  The program also crashes (a panic, status 101): C116 is false, see the
witnesses.  Here are all the causes of a crash of a run on one file; those of `SureCrash` always crash, with nothing written.
-/
namespace DumpSyms
namespace WinHost
open WinPath
open Cache (World)
open Dumper (Env Config prepare fromObject ObjectCrash MappingCrash fileNameOnly_no_slash fileNameOnly_suffix)
open Run (Orders Options Action actionOf exitStatus Infos)
open Output (FileOutput Out IoEnv writeTo writeTo_crash)

/-- A run on one file always crashes, with nothing written: an extra INFO line is malformed, the contents of the file cannot be got, the
mapping file or the input cannot be read, or the embedded debug data is not within the file. -/
inductive SureCrash (env : Env) (o : Options) (config : Config) (pre filename : Str) (w : World) : Prop
  | info (v : Str) : v ∈ o.extraInfo.getD [] → ¬ Main.InfoLine v → SureCrash env o config pre filename w
  | contents : ContentsCrash env config (pre ++ filename) filename w → SureCrash env o config pre filename w
  | mapping (b : Bytes) (w1 : World) : Contents env config (pre ++ filename) filename w b w1 → MappingCrash env config →
      SureCrash env o config pre filename w
  | input (b : Bytes) (w1 : World) (mapping : Option (List Mapping.Generator)) (arch : Str) : Contents env config (pre ++ filename) filename w b w1 →
      Mapping.new env.map o.mappingVar o.mappingSrc o.mappingDest o.mappingFile = .ok mapping → env.parsers.arch o.arch = some arch →
      InputCrash env b pre filename o.symbolServer w1 → SureCrash env o config pre filename w
  | embedded (b : Bytes) (w1 : World) (mapping : Option (List Mapping.Generator)) (arch : Str) (obj : ObjInput) (name : Str)
      (pe : Option ObjInput) (peName : Option Str) (platform : Platform) (opts : Bool) (w' : World) (fs : List (Option Func)) (h : Section) :
      Contents env config (pre ++ filename) filename w b w1 →
      Mapping.new env.map o.mappingVar o.mappingSrc o.mappingDest o.mappingFile = .ok mapping → env.parsers.arch o.arch = some arch →
      DumpedFrom env b pre filename arch o.symbolServer w1 obj name pe peName platform opts w' → obj.functions = .ok fs →
      obj.EmbeddedIn h → obj.data.length < h.offset + h.size → SureCrash env o config pre filename w

/-- Writing crashes: the output file, or the file in the store of a module with the name `last` and the id `id`, cannot be created; or a store is given that is
verbatim, or a module is to be put in a store that has a name or an id that Windows does not allow. -/
inductive WriteCrash (io : Output.IoEnv) (o : Options) (last id : Str) : Prop
  | output (p : Str) : o.output = some p → p ≠ ['-'] → io.create p = false → WriteCrash io o last id
  | store (d p : Str) : o.store = some d → d ≠ [] → InStore d last id p → io.create p = false → WriteCrash io o last id
  | verbatim (d : Str) : o.store = some d → d ≠ [] → ¬ PlainDir d → WriteCrash io o last id
  | odd (d : Str) : o.store = some d → d ≠ [] → ¬ (WinProper last ∧ WinProper id) → WriteCrash io o last id

/-- What else a run on one file can crash on: something in the object that is dumped, or the writing. -/
inductive LateCrash (env : Env) (o : Options) (config : Config) (pre filename : Str) (w : World) : Prop
  | object (b : Bytes) (w1 : World) (rules : List Mapping.Rule) (arch : Str) (obj : ObjInput) (name : Str)
      (pe : Option ObjInput) (peName : Option Str) (platform : Platform) (opts : Bool) (w' : World) :
      Contents env config (pre ++ filename) filename w b w1 →
      Mapping.Configured env.map o.mappingVar o.mappingSrc o.mappingDest o.mappingFile rules → env.parsers.arch o.arch = some arch →
      DumpedFrom env b pre filename arch o.symbolServer w1 obj name pe peName platform opts w' →
      ObjectCrash env (if opts then rules else []) platform obj → LateCrash env o config pre filename w
  | write (b : Bytes) (w1 : World) (arch : Str) (obj : ObjInput) (name : Str)
      (pe : Option ObjInput) (peName : Option Str) (platform : Platform) (opts : Bool) (w' : World) (last : Str) :
      Contents env config (pre ++ filename) filename w b w1 → env.parsers.arch o.arch = some arch →
      DumpedFrom env b pre filename arch o.symbolServer w1 obj name pe peName platform opts w' →
      AfterLast '/' (if obj.format = .elf ∨ obj.format = .machO then obj.name.getD name else name) last →
      WriteCrash env.io o last obj.debugId → LateCrash env o config pre filename w

/-- Writing a module crashes only in the cases described. -/
theorem store_crash {io : IoEnv} {extra : Option (List Str)} {o : Options} {checkCfi : Bool} {m : ObjectInfo} {w : Output.World} {t : Str}
    (ht : m.display extra = .ok t) (h : (store io extra (.ofOptions o.output o.store) checkCfi m w).1 = .panic) :
    WriteCrash io o m.fileName m.debugId := by
  by_cases hw : ∃ d, o.store = some d ∧ d ≠ [] ∧ ¬ (WinProper m.fileName ∧ WinProper m.debugId)
  · obtain ⟨d, h1, h2, h3⟩ := hw
    exact .odd d h1 h2 h3
  by_cases hv : ∃ d, o.store = some d ∧ d ≠ [] ∧ ¬ PlainDir d
  · obtain ⟨d, h1, h2, h3⟩ := hv
    exact .verbatim d h1 h2 h3
  have hfile : ∀ fo w, (destinations (.ofOptions o.output o.store) m).1 = some fo → (writeTo io (.ok t) fo w).1 = .panic →
      WriteCrash io o m.fileName m.debugId := by
    intro fo w hd h
    obtain ⟨p, rfl, hc⟩ := writeTo_crash.mp h
    have : o.output = some p ∧ p ≠ ['-'] := by
      unfold Output.Out.ofOptions at hd
      cases h1 : o.output with
      | none => cases h2 : o.store <;> rw [h1, h2] at hd <;> cases hd
      | some f =>
        have : Output.FileOutput.ofStr f = .path p := by
          cases h2 : o.store <;> rw [h1, h2] at hd <;> exact Option.some.inj hd
        unfold Output.FileOutput.ofStr at this
        split at this
        · cases this
        · cases this
          exact ⟨rfl, by assumption⟩
    exact .output p this.1 this.2 hc
  unfold store at h
  split at h
  · cases h
  · simp only [ht] at h
    cases h2 : (destinations (.ofOptions o.output o.store) m).2 with
    | none =>
      rw [h2] at h
      simp only at h
      cases h1 : (destinations (.ofOptions o.output o.store) m).1 with
      | none => rw [h1] at h; cases h
      | some fo => rw [h1] at h; exact hfile fo _ h1 h
    | some p =>
      rw [h2] at h
      simp only at h
      obtain ⟨dir, hout, hne, hp⟩ := dest_store h2
      have hst : o.store = some dir := by
        unfold Output.Out.ofOptions at hout
        cases h1 : o.output <;> cases h2 : o.store <;> rw [h1, h2] at hout <;> rcases hout with hout | ⟨_, hout⟩ <;> cases hout <;> rfl
      have hplain : PlainDir dir := Classical.byContradiction fun hn => hv ⟨dir, hst, hne, hn⟩
      obtain ⟨n1, n2⟩ : WinProper m.fileName ∧ WinProper m.debugId := Classical.byContradiction fun hn => hw ⟨dir, hst, hne, hn⟩
      have hin := (inStore_iff hplain n1 n2).mpr hp
      obtain ⟨d, hd⟩ := store_parent hplain n1 n2
      rw [← hp] at hd
      generalize hr : writeStore io (.ok t) p w = r at h
      obtain ⟨r, w'⟩ := r
      cases r with
      | err m => cases h
      | ok u =>
        simp only at h
        cases h1 : (destinations (.ofOptions o.output o.store) m).1 with
        | none => rw [h1] at h; cases h
        | some fo => rw [h1] at h; exact hfile fo _ h1 h
      | panic =>
        unfold writeStore at hr
        rw [hd] at hr
        simp only at hr
        split at hr
        · obtain ⟨q, hq, hc⟩ := writeTo_crash.mp (by rw [hr])
          cases hq
          exact .store dir p hst hne hin hc
        · cases hr

/-- What the process does on one file. -/
theorem exits_single {env : Env} {version : Str} {cpus : Nat} {o : Options} {w : World} {orders : Orders} {out : Output.World} {path : Str}
    (hfile : o.filenames = [path]) {c : Config} (hact : actionOf cpus o = .dump c) (code : Nat) (out' : Output.World) :
    Exits env version cpus o w orders out code out' ↔
      ((∃ v ∈ o.extraInfo.getD [], ¬ Main.InfoLine v) ∧ code = 101 ∧ out' = out) ∨
      ((∀ v ∈ o.extraInfo.getD [], Main.InfoLine v) ∧ code = exitStatus (singleFile env (some (Infos version o)) c path w out).1 ∧
        out' = (singleFile env (some (Infos version o)) c path w out).2.2) := by
  by_cases hinfo : ∀ v ∈ o.extraInfo.getD [], Main.InfoLine v
  · have hextra := Run.extra_ok (version := version) hinfo
    constructor
    · intro h
      right
      refine ⟨hinfo, ?_⟩
      cases h with
      | badInfo h => exact absurd hextra (h _)
      | acts extra r out' h ha =>
        rw [hextra] at h; cases h
        rw [hact] at ha
        cases ha with
        | several config ws r out' hlen hw hs => rw [hfile] at hlen; exact absurd rfl hlen
        | single config g hg => rw [hfile] at hg; cases hg; exact ⟨rfl, rfl⟩
    · rintro (⟨⟨v, h1, h2⟩, _⟩ | ⟨_, rfl, rfl⟩)
      · exact absurd (hinfo v h1) h2
      · exact .acts _ _ _ hextra (hact ▸ Acts.single c path hfile)
  · have hbad : ∃ v ∈ o.extraInfo.getD [], ¬ Main.InfoLine v := by
      simpa only [Classical.not_forall, exists_prop] using hinfo
    have hpanic := (Main.C55_rejected version o.extraInfo o.noGenerator).mpr hbad
    constructor
    · intro h
      left
      refine ⟨hbad, ?_⟩
      cases h with
      | badInfo h => exact ⟨rfl, rfl⟩
      | acts extra r out' h ha => rw [hpanic] at h; cases h
    · rintro (⟨_, rfl, rfl⟩ | ⟨h, _⟩)
      · exact .badInfo fun e he => by rw [hpanic] at he; cases he
      · exact absurd h hinfo

/-- A run on one file ends, in one way, with status 0, 1 or 101. -/
theorem C116_ends (env : Env) (version : Str) (cpus : Nat) (o : Options) (hla : o.listArch = false) (path : Str) (hfile : o.filenames = [path])
    (w : World) (orders : Orders) (out : Output.World) :
    ∃ code out', (∀ code' out'', Exits env version cpus o w orders out code' out'' ↔ code' = code ∧ out'' = out') ∧
      (code = 0 ∨ code = 1 ∨ code = 101) := by
  obtain ⟨c, hact, hc⟩ := (C115_config cpus o).2 hla
  by_cases hinfo : ∀ v ∈ o.extraInfo.getD [], Main.InfoLine v
  · refine ⟨exitStatus (singleFile env (some (Infos version o)) c path w out).1, (singleFile env (some (Infos version o)) c path w out).2.2, fun code' out'' => ?_, ?_⟩
    · rw [exits_single hfile hact]
      constructor
      · rintro (⟨⟨v, h1, h2⟩, _⟩ | ⟨_, h1, h2⟩)
        · exact absurd (hinfo v h1) h2
        · exact ⟨h1, h2⟩
      · rintro ⟨h1, h2⟩
        exact .inr ⟨hinfo, h1, h2⟩
    · cases (singleFile env (some (Infos version o)) c path w out).1 with
      | ok u => exact .inl rfl
      | err m => exact .inr (.inl rfl)
      | panic => exact .inr (.inr rfl)
  · have hbad : ∃ v ∈ o.extraInfo.getD [], ¬ Main.InfoLine v := by
      simpa only [Classical.not_forall, exists_prop] using hinfo
    refine ⟨101, out, fun code' out'' => ?_, .inr (.inr rfl)⟩
    rw [exits_single hfile hact]
    constructor
    · rintro (⟨_, h1, h2⟩ | ⟨h, _⟩)
      · exact ⟨h1, h2⟩
      · exact absurd h hinfo
    · rintro ⟨h1, h2⟩
      exact .inl ⟨hbad, h1, h2⟩

/-- If reading crashes, so does the run, and nothing is written. -/
theorem exits_crash {env : Env} {version : Str} {cpus : Nat} {o : Options} {w : World} {orders : Orders} {out : Output.World} {path : Str}
    (hfile : o.filenames = [path]) {c : Config} (hact : actionOf cpus o = .dump c) (h : (readSingle env c path w).1 = .panic) (code : Nat)
    (out' : Output.World) : Exits env version cpus o w orders out code out' ↔ code = 101 ∧ out' = out := by
  have h1 : (singleFile env (some (Infos version o)) c path w out).1 = .panic ∧ (singleFile env (some (Infos version o)) c path w out).2.2 = out := by
    unfold singleFile
    simp only [h, and_self]
  rw [exits_single hfile hact, h1.1, h1.2]
  constructor
  · rintro (⟨_, h1, h2⟩ | ⟨_, h1, h2⟩) <;> exact ⟨h1, h2⟩
  · rintro ⟨h1, h2⟩
    by_cases hinfo : ∀ v ∈ o.extraInfo.getD [], Main.InfoLine v
    · exact .inr ⟨hinfo, h1, h2⟩
    · exact .inl ⟨by simpa only [Classical.not_forall, exists_prop] using hinfo, h1, h2⟩

/-- A path without a last name (`C:\\`, `..`) crashes the run. -/
theorem C116_no_name (env : Env) (version : Str) (cpus : Nat) (o : Options) (hla : o.listArch = false) (path : Str) (hfile : o.filenames = [path])
    (hno : WinPath.fileName path = none) (w : World) (orders : Orders) (out : Output.World) (code : Nat) (out' : Output.World) :
    Exits env version cpus o w orders out code out' ↔ code = 101 ∧ out' = out := by
  obtain ⟨c, hact, hc⟩ := (C115_config cpus o).2 hla
  refine exits_crash hfile hact ?_ code out'
  unfold readSingle getFilename
  rw [hno]

theorem readSingle_eq {env : Env} {c : Config} {pre filename : Str} {w w1 : World} {b : Bytes} (hdir : WinDirPart pre) (hname : WinProper filename)
    (hsane : Sane env w.disk) (hca : SaneCaches env c.symbolServer w.disk) (hid : ∀ id, c.debugId = some id ∨ c.codeId = some id → WinProper id)
    (hcont : Contents env c (pre ++ filename) filename w b w1) :
    readSingle env c (pre ++ filename) w = match prepare env c with
      | .ok (mapping, arch) => getObjectInfo env b (pre ++ filename) filename mapping arch c.symbolServer c.emitInlines w1
      | .err m => (.err m, w1)
      | .panic => (.panic, w1) := by
  have hn : getFilename (pre ++ filename) = .ok filename := by
    unfold getFilename
    rw [fileName_dir hdir hname]
  have hg := (contents_iff env c w hdir hname hsane hid hca b w1).mpr hcont
  unfold readSingle
  rw [hn]
  simp only [hg]
  rfl

theorem contents_of {env : Env} {c c' : Config} (h1 : c.debugId = c'.debugId) (h2 : c.codeId = c'.codeId)
    (h3 : c.symbolServer = c'.symbolServer) {path filename : Str} {w : World} {b : Bytes} {w1 : World}
    (h : Contents env c path filename w b w1) : Contents env c' path filename w b w1 := by
  cases h with
  | byPath _ e1 e2 e3 => exact .byPath _ (h1 ▸ e1) (h2 ▸ e2) e3
  | byId id servers _ _ e1 e2 e3 => exact .byId id servers _ _ (by rw [← h1, ← h2]; exact e1) (h3 ▸ e2) e3

/-- The configuration of a run is known from the options. -/
theorem contentsCrash_of {env : Env} {c c' : Config} (h1 : c.debugId = c'.debugId) (h2 : c.codeId = c'.codeId)
    (h3 : c.symbolServer = c'.symbolServer) {path filename : Str} {w : World}
    (h : ContentsCrash env c path filename w) : ContentsCrash env c' path filename w := by
  cases h with
  | byPath e1 e2 e3 => exact .byPath (h1 ▸ e1) (h2 ▸ e2) e3
  | config id e1 e2 => exact .config id (by rw [← h1, ← h2]; exact e1) (h3 ▸ e2)
  | byId id ss e1 e2 e3 => exact .byId id ss (by rw [← h1, ← h2]; exact e1) (h3 ▸ e2) e3

/-- **C116, the crashes that are sure.** -/
theorem C116_sure (env : Env) (version : Str) (cpus : Nat) (o : Options) (hla : o.listArch = false) (pre filename : Str) (hdir : WinDirPart pre)
    (hname : WinProper filename) (hfile : o.filenames = [pre ++ filename])
    (hid : ∀ id, o.debugId = some id ∨ o.codeId = some id → WinProper id)
    (hargs : o.mappingSrc ≠ some [] ∧ o.mappingDest ≠ some [])
    (w : World) (hsane : Sane env w.disk) (hca : SaneCaches env o.symbolServer w.disk) (orders : Orders) (out : Output.World)
    (config : Config) (hcfg : Configures cpus o config)
    (hpe : ∀ b w1, Contents env config (pre ++ filename) filename w b w1 →
      SanePe env b ∧ SaneCaches env o.symbolServer w1.disk)
    (h : SureCrash env o config pre filename w) (code : Nat) (out' : Output.World) :
    Exits env version cpus o w orders out code out' ↔ code = 101 ∧ out' = out := by
  obtain ⟨c, hact, hc⟩ := (C115_config cpus o).2 hla
  obtain ⟨r1, r2, r3⟩ := hc.search
  obtain ⟨q1, q2, q3⟩ := hcfg.search
  obtain ⟨m1, m2, m3, m4⟩ := hc.mapping
  obtain ⟨k1, k2, k3, k4⟩ := hcfg.mapping
  obtain ⟨n1, n2⟩ := hc.reading
  have hid' : ∀ id, c.debugId = some id ∨ c.codeId = some id → WinProper id := by rw [r2, r3]; exact hid
  have hca' : SaneCaches env c.symbolServer w.disk := by rw [r1]; exact hca
  have hcont' : ∀ {b w1}, Contents env config (pre ++ filename) filename w b w1 → Contents env c (pre ++ filename) filename w b w1 :=
    contents_of (by rw [r2, q2]) (by rw [r3, q3]) (by rw [r1, q1])
  cases h with
  | info v h1 h2 =>
    rw [exits_single hfile hact]
    constructor
    · rintro (⟨_, h⟩ | ⟨h, _⟩)
      · exact h
      · exact absurd (h v h1) h2
    · intro h; exact .inl ⟨⟨v, h1, h2⟩, h⟩
  | contents h =>
    refine exits_crash hfile hact ?_ code out'
    have hn : getFilename (pre ++ filename) = .ok filename := by
      unfold getFilename
      rw [fileName_dir hdir hname]
    have := (contents_crash_iff env c w hdir hname hsane hid' hca').mpr (contentsCrash_of (by rw [r2, q2]) (by rw [r3, q3]) (by rw [r1, q1]) h)
    unfold readSingle
    rw [hn]
    simp only [this]
  | mapping b w1 h1 h2 =>
    refine exits_crash hfile hact ?_ code out'
    rw [readSingle_eq hdir hname hsane hca' hid' (hcont' h1)]
    have : prepare env c = .panic := by
      rw [Run.prepare_panic, m1, m2, m3, m4, Mapping.new_crash_iff _ _ _ _ _ hargs.1 hargs.2, ← k1, ← k4]
      exact h2
    rw [this]
  | input b w1 mapping arch h1 h2 h3 h4 =>
    refine exits_crash hfile hact ?_ code out'
    rw [readSingle_eq hdir hname hsane hca' hid' (hcont' h1), Run.prepare_ok.mpr ⟨by rw [m1, m2, m3, m4]; exact h2, by rw [n1]; exact h3⟩]
    simp only
    rw [r1]
    exact input_crash hdir hname (contents_sane h1 hsane) (hpe b w1 h1).1 (hpe b w1 h1).2 h4 _ _ _
  | embedded b w1 mapping arch obj name pe peName platform opts w' fs x h1 h2 h3 h4 h5 h6 h7 =>
    refine exits_crash hfile hact ?_ code out'
    rw [readSingle_eq hdir hname hsane hca' hid' (hcont' h1), Run.prepare_ok.mpr ⟨by rw [m1, m2, m3, m4]; exact h2, by rw [n1]; exact h3⟩]
    simp only
    rw [r1, C112_complete env arch o.symbolServer hdir hname (contents_sane h1 hsane) (hpe b w1 h1).1 (hpe b w1 h1).2 h4]
    exact ObjectInfo.fromObject_embedded h5 h6 h7

/-- **C116, there are no others**: if a run on one file crashes, the crash is a sure one, or comes from the object or a destination.
Missing for C116: these crashes. -/
theorem C116_crash_partial (env : Env) (hsha : ∀ d, ∀ b ∈ env.map.sha512 d, b < 256) (hord : ∀ l, (env.map.order l).Perm l)
    (version : Str) (cpus : Nat) (o : Options) (hla : o.listArch = false) (pre filename : Str) (hdir : WinDirPart pre)
    (hname : WinProper filename) (hfile : o.filenames = [pre ++ filename])
    (hid : ∀ id, o.debugId = some id ∨ o.codeId = some id → WinProper id)
    (hargs : o.mappingSrc ≠ some [] ∧ o.mappingDest ≠ some [])
    (w : World) (hsane : Sane env w.disk) (hca : SaneCaches env o.symbolServer w.disk) (orders : Orders) (out : Output.World)
    (config : Config) (hcfg : Configures cpus o config)
    (hpe : ∀ b w1, Contents env config (pre ++ filename) filename w b w1 →
      SanePe env b ∧ SaneCaches env o.symbolServer w1.disk)
    (out' : Output.World) (h : Exits env version cpus o w orders out 101 out') :
    SureCrash env o config pre filename w ∨ LateCrash env o config pre filename w := by
  obtain ⟨c, hact, hc⟩ := (C115_config cpus o).2 hla
  obtain ⟨r1, r2, r3⟩ := hc.search
  obtain ⟨q1, q2, q3⟩ := hcfg.search
  obtain ⟨m1, m2, m3, m4⟩ := hc.mapping
  obtain ⟨k1, k2, k3, k4⟩ := hcfg.mapping
  obtain ⟨n1, n2⟩ := hc.reading
  have hid' : ∀ id, c.debugId = some id ∨ c.codeId = some id → WinProper id := by rw [r2, r3]; exact hid
  have hca' : SaneCaches env c.symbolServer w.disk := by rw [r1]; exact hca
  have houtput : c.output = Output.Out.ofOptions o.output o.store := by
    simp only [actionOf, hla, Bool.false_eq_true, if_false, Action.dump.injEq] at hact
    rw [← hact]
  have hcont' : ∀ {b w1}, Contents env c (pre ++ filename) filename w b w1 → Contents env config (pre ++ filename) filename w b w1 :=
    contents_of (by rw [r2, q2]) (by rw [r3, q3]) (by rw [r1, q1])
  rcases (exits_single hfile hact _ _).mp h with ⟨⟨v, h1, h2⟩, _⟩ | ⟨hinfo, h1, _⟩
  · exact .inl (.info v h1 h2)
  have hcrash : (singleFile env (some (Infos version o)) c (pre ++ filename) w out).1 = .panic := by
    generalize (singleFile env (some (Infos version o)) c (pre ++ filename) w out).1 = x at h1
    cases x with
    | ok u => cases h1
    | err m => cases h1
    | panic => rfl
  have hn : getFilename (pre ++ filename) = .ok filename := by
    unfold getFilename
    rw [fileName_dir hdir hname]
  by_cases hcc : (getFromId env c (pre ++ filename) filename w).1 = .panic
  · exact .inl (.contents (contentsCrash_of (by rw [r2, q2]) (by rw [r3, q3]) (by rw [r1, q1])
      ((contents_crash_iff env c w hdir hname hsane hid' hca').mp hcc)))
  generalize hg : getFromId env c (pre ++ filename) filename w = r at hcc
  obtain ⟨r, w1⟩ := r
  unfold singleFile at hcrash
  simp only at hcrash
  cases r with
  | panic => exact absurd rfl hcc
  | err m =>
    have : readSingle env c (pre ++ filename) w = (.err m, w1) := by
      unfold readSingle
      rw [hn]
      simp only [hg]
    rw [this] at hcrash; cases hcrash
  | ok b =>
    have hcont := (contents_iff env c w hdir hname hsane hid' hca' b w1).mp hg
    have hcontc := hcont' hcont
    rw [readSingle_eq hdir hname hsane hca' hid' hcont] at hcrash
    generalize hp : prepare env c = x at hcrash
    cases x with
    | err m => cases hcrash
    | panic =>
      left
      refine .mapping b w1 hcontc ?_
      rw [Run.prepare_panic, m1, m2, m3, m4, Mapping.new_crash_iff _ _ _ _ _ hargs.1 hargs.2, ← k1, ← k4] at hp
      exact hp
    | ok x =>
      obtain ⟨mapping, arch⟩ := x
      obtain ⟨hp1, hp2⟩ := Run.prepare_ok.mp hp
      rw [m1, m2, m3, m4] at hp1
      rw [n1] at hp2
      obtain ⟨rules, x1, x2⟩ := Dumper.C79_rules env hsha hord _ _ _ _ mapping hp1
      simp only at hcrash
      rw [r1] at hcrash
      have hsane1 := contents_sane hcontc hsane
      obtain ⟨hpe1, hca1⟩ := hpe b w1 hcontc
      have guards : ∀ obj name pe peName platform (opts : Bool), 
          (fromObject env obj name pe peName platform (if opts then mapping else none) (c.emitInlines && opts)).Guards
            (ObjectCrash env (if opts then rules else []) platform obj) fun m => ∀ extra, ∃ text, m.display extra = .ok text := by
        intro obj name pe peName platform opts
        refine ObjectInfo.fromObject_guards _ _ _ _ _ _ _ ?_ ?_ ?_
        · intro fs hfs f hf cd i hr hpan
          refine .mapping fs f cd i _ hfs hf hr (Run.cenv_records (mapping := if opts then mapping else none).mp (records_iff.mpr rfl)) ?_
          cases opts with
          | true => exact ((x2 platform obj _).1.mp hpan)
          | false => cases hpan
        · intro ps hps p hp n hn hw hb
          exact .name ps p n hw hps hp hn hb
        · intro x hx hl
          exact .embedded x hx hl
      generalize hgo : getObjectInfo env b (pre ++ filename) filename mapping arch o.symbolServer c.emitInlines w1 = y at hcrash
      obtain ⟨y, w2⟩ := y
      cases y with
      | err m => cases hcrash
      | panic =>
        rcases input_crash_of hdir hname hsane1 hpe1 hca1 (by rw [hgo]) with hx | ⟨obj, name, pe, peName, platform, opts, w', hd, hx⟩
        · exact .inl (.input b w1 mapping arch hcontc hp1 hp2 hx)
        · exact .inr (.object b w1 rules arch obj name pe peName platform opts w' hcontc x1 hp2 hd
            ((guards obj name pe peName platform opts).panics hx))
      | ok m =>
        obtain ⟨obj, name, pe, peName, platform, opts, hd, hx⟩ := C112_sound env arch o.symbolServer hdir hname hsane1 hpe1 hca1 mapping c.emitInlines hgo
        obtain ⟨text, ht⟩ := (guards obj name pe peName platform opts).gives m hx (some (Infos version o))
        obtain ⟨f1, f2, f3, _⟩ := fromObject_header hx
        have hlast : AfterLast '/' (if obj.format = .elf ∨ obj.format = .machO then obj.name.getD name else name) m.fileName := by
          rw [f1]; exact ⟨fileNameOnly_no_slash _, fileNameOnly_suffix _⟩
        rw [houtput] at hcrash
        have := store_crash ht hcrash
        rw [f3] at this
        exact .inr (.write b w1 arch obj name pe peName platform opts w2 m.fileName hcontc hp2 hd hlast this)

theorem crash_of {env : Env} {version : Str} {cpus : Nat} {o : Options} {w : World} {orders : Orders} {out out1 : Output.World} {path : Str}
    (hfile : o.filenames = [path]) (hinfo : ∀ v ∈ o.extraInfo.getD [], Main.InfoLine v) {c : Config} (hact : actionOf cpus o = .dump c)
    {info : ObjectInfo} (hread : (readSingle env c path w).1 = .ok info)
    (h : store env.io (some (Infos version o)) c.output c.checkCfi info out = (.panic, out1)) (code : Nat) (out' : Output.World) :
    Exits env version cpus o w orders out code out' ↔ code = 101 ∧ out' = out1 := by
  have h1 : (singleFile env (some (Infos version o)) c path w out).1 = .panic ∧ (singleFile env (some (Infos version o)) c path w out).2.2 = out1 := by
    unfold singleFile
    simp only [hread, h, and_self]
  rw [exits_single hfile hact, h1.1, h1.2]
  constructor
  · rintro (⟨⟨v, h1, h2⟩, _⟩ | ⟨_, h⟩)
    · exact absurd (hinfo v h1) h2
    · exact h
  · intro h
    exact .inr ⟨hinfo, h⟩

/-- **C116, destinations that cannot be created.** If a module is made that may be written, the run crashes if its file in the store cannot be created,
and only its directory is made; and if the output file cannot be created, where what is to be written in the store has been written before. -/
theorem C116_create (env : Env) (hch : ∀ t, (env.io.chunks t).flatten = Utf8.encode t) (version : Str) (cpus : Nat) (o : Options) (hla : o.listArch = false) (path : Str)
    (hfile : o.filenames = [path]) (hinfo : ∀ v ∈ o.extraInfo.getD [], Main.InfoLine v) (w : World) (orders : Orders) (out : Output.World)
    (config : Config) (hcfg : actionOf cpus o = .dump config) (info : ObjectInfo) (hread : (readSingle env config path w).1 = .ok info)
    (t : Str) (ht : info.display (some (Infos version o)) = .ok t) (hcfi : o.checkCfi = true → info.stack ≠ []) :
    (∀ d p parent, o.store = some d → d ≠ [] → PlainDir d → WinProper info.fileName → WinProper info.debugId →
      InStore d info.fileName info.debugId p → WinPath.parent p = some parent → env.io.mkdirs parent = true → env.io.create p = false →
      ∀ code out', Exits env version cpus o w orders out code out' ↔ code = 101 ∧ out' = { out with dirs := parent :: out.dirs }) ∧
    (∀ f, o.output = some f → f ≠ ['-'] → env.io.create f = false → o.store = none →
      ∀ code out', Exits env version cpus o w orders out code out' ↔ code = 101 ∧ out' = out) ∧
    (∀ f d p parent, o.output = some f → f ≠ ['-'] → env.io.create f = false → o.store = some d → d ≠ [] → PlainDir d →
      WinProper info.fileName → WinProper info.debugId → InStore d info.fileName info.debugId p → WinPath.parent p = some parent →
      env.io.mkdirs parent = true → env.io.create p = true → (Utf8.encode t).length ≤ env.io.room (.path p) →
      ∀ code out', Exits env version cpus o w orders out code out' ↔ code = 101 ∧
        out' = { out with dirs := parent :: out.dirs }.receive (.path p) (Utf8.encode t)) := by
  have hout : config.output = Output.Out.ofOptions o.output o.store ∧ config.checkCfi = o.checkCfi := by
    simp only [actionOf, hla, Bool.false_eq_true, if_false, Action.dump.injEq] at hcfg
    rw [← hcfg]
    exact ⟨rfl, rfl⟩
  have hgo : (config.checkCfi && !info.hasStack) = false := by
    rw [hout.2]
    cases hcc : o.checkCfi with
    | false => rfl
    | true => simpa [ObjectInfo.hasStack] using hcfi hcc
  have hdest2 : ∀ {d p : Str}, o.store = some d → d ≠ [] → PlainDir d → WinProper info.fileName → WinProper info.debugId →
      InStore d info.fileName info.debugId p → (destinations config.output info).2 = some p := by
    intro d p hst hd hplain n1 n2 hin
    have hp : symStorePath info d = some p := by
      rw [symStorePath_of_ne hd, (inStore_iff hplain n1 n2).mp hin]
    rw [hout.1, hst]
    cases o.output <;> exact hp
  have hdest1 : ∀ {f : Str}, o.output = some f → f ≠ ['-'] → (destinations config.output info).1 = some (.path f) := by
    intro f hf hne
    have : Output.FileOutput.ofStr f = .path f := by unfold Output.FileOutput.ofStr; rw [if_neg hne]
    rw [hout.1, hf]
    cases o.store <;> simp [Output.Out.ofOptions, destinations, this]
  have hnone : ∀ {f : Str}, env.io.create f = false → ∀ w, writeTo env.io (.ok t) (.path f) w = (.panic, w) := by
    intro f hf w
    unfold writeTo
    simp [Output.opens, hf]
  refine ⟨fun d p parent hst hd hplain n1 n2 hin hpar hmk hcr => crash_of hfile hinfo hcfg hread ?_,
    fun f hf hne hcr hst => crash_of hfile hinfo hcfg hread ?_,
    fun f d p parent hf hne hcr hst hd hplain n1 n2 hin hpar hmk hcp hroom => crash_of hfile hinfo hcfg hread ?_⟩
  · have hs : writeStore env.io (.ok t) p out = (.panic, { out with dirs := parent :: out.dirs }) := by
      unfold writeStore
      rw [hpar]
      simp only [hmk, if_true, hnone hcr]
    unfold store
    simp only [hgo, Bool.false_eq_true, if_false, hdest2 hst hd hplain n1 n2 hin, ht, hs]
  · have h2 : (destinations config.output info).2 = none := by rw [hout.1, hf, hst]; rfl
    simp [store, hgo, h2, hdest1 hf hne, ht, hnone hcr]
  · have hw : ∀ out, writeTo env.io (.ok t) (.path p) out = (.ok (), out.receive (.path p) (Utf8.encode t)) := by
      intro out
      rcases Output.writeTo_spec (.path p) out (hch t) with ⟨_, _, q, hq, h⟩ | ⟨h1, _, h2⟩
      · cases hq; rw [hcp] at h; cases h
      · rw [List.take_of_length_le hroom] at h1
        have : (writeTo env.io (.ok t) (.path p) out).1 = .ok () := Classical.byContradiction fun hn => absurd (h2 hn).2 (by omega)
        exact Prod.ext this h1
    have hs : writeStore env.io (.ok t) p out = (.ok (), { out with dirs := parent :: out.dirs }.receive (.path p) (Utf8.encode t)) := by
      unfold writeStore
      rw [hpar]
      simp only [hmk, if_true, hw]
    unfold store
    simp only [hgo, Bool.false_eq_true, if_false, hdest2 hst hd hplain n1 n2 hin, ht, hs, hdest1 hf hne, hnone hcr]

/-! ## Witnesses -/

/-- A run crashes. -/
def Crashes (env : Env) (o : Options) (w : World) : Prop :=
  ∃ out', ∀ code out'', Exits env (str% "1.0") 4 o w Run.exOrders Output.emptyWorld code out'' ↔ code = 101 ∧ out'' = out'

theorem crashes_of {env : Env} {o : Options} {w : World} {path : Str} (hfile : o.filenames = [path]) {c : Config}
    (hact : actionOf 4 o = .dump c) (hinfo : o.extraInfo = none)
    (h : (singleFile env (some (Infos (str% "1.0") o)) c path w Output.emptyWorld).1 = .panic) : Crashes env o w := by
  refine ⟨_, fun code out'' => (exits_single hfile hact _ _).trans ⟨?_, fun h' => .inr ⟨by rw [hinfo]; simp, ?_, h'.2⟩⟩⟩
  · rintro (⟨⟨v, h1, _⟩, _⟩ | ⟨_, h1, h2⟩)
    · rw [hinfo] at h1; cases h1
    · rw [h] at h1; exact ⟨h1, h2⟩
  · rw [h]; exact h'.1

def winCrashOptions : Options := Run.exOptions [str% "C:\\d\\" ++ str% "a"]
def winCrashDisk (b : Bytes) : World := Dumper.exWorld [(str% "C:\\d\\a", .file b true)]
/-- As `winEnv`, with an ELF file that has debug data outside the file and a PDB with a public symbol whose name starts with `é`. -/
def winCrashEnv : Env := { winEnv with parsers := Run.crashEnv.parsers }
/-- As `winEnv`, where the files that mappings may ask for cannot be opened. -/
def winShutEnv : Env := { winEnv with map := Run.shutEnv.map }

/-- **C116 is false**: each of these makes the run crash instead of reporting an error: a file that is not there; a mapping file that cannot
be opened; a damaged PE; a damaged object in a fat binary; embedded debug data outside the file; a symbol name that is not ASCII; a source
file that cannot be opened; an output that cannot be created; a file in the store that cannot be created; a module named after a share. -/
theorem C116_witness :
    Crashes winEnv winCrashOptions (Dumper.exWorld []) ∧
    Crashes winShutEnv { winCrashOptions with mappingFile := some (str% "m.json") } (winCrashDisk [1]) ∧
    Crashes winEnv winCrashOptions (winCrashDisk [3, 9]) ∧
    Crashes winEnv winCrashOptions (winCrashDisk [4, 0]) ∧
    Crashes winCrashEnv winCrashOptions (winCrashDisk [1, 1]) ∧
    Crashes winCrashEnv winCrashOptions (winCrashDisk [2, 1]) ∧
    Crashes winShutEnv { winCrashOptions with mappingSrc := some [str% "x"], mappingDest := some [str% "{digest}"] } (winCrashDisk [1]) ∧
    Crashes { winEnv with io := { Output.goodDisk with create := fun _ => false } } { winCrashOptions with output := some (str% "o"), store := none }
      (winCrashDisk [1]) ∧
    Crashes { winEnv with io := { Output.goodDisk with create := fun _ => false } } { winCrashOptions with output := none, store := some (str% "D:") }
      (winCrashDisk [1]) ∧
    Crashes winEnv { winCrashOptions with output := none, store := some (str% "D:") } (winCrashDisk [1, 1]) := by
  refine ⟨?_, ?_, ?_, ?_, ?_, ?_, ?_, ?_, ?_, ?_⟩ <;> exact crashes_of (path := str% "C:\\d\\a") rfl rfl rfl (by decide +kernel)

/-- The same run without any of this. -/
example : (singleFile winEnv (some []) (match actionOf 4 winCrashOptions with | .dump c => c | _ => Dumper.exConfig) (str% "C:\\d\\a") (winCrashDisk [1])
    Output.emptyWorld).1 = .ok () := by decide +kernel

theorem winCrash_sane (fs : List (Str × Node)) (h : ∀ x ∈ fs, ∀ es, x.2 ≠ .dir es) : Sane winEnv (Dumper.exWorld fs).disk where
  dirs := fun q es hq => by
    exfalso
    simp only [Dumper.exWorld, WinUtils.diskOf] at hq
    exact h _ (mem_of_lookup hq) es rfl
  room := winPair_sane.room
  arrivals := winPair_sane.arrivals
  cwd := winPair_sane.cwd
  home := winPair_sane.home

theorem winNone_caches : SaneCaches winEnv none (Dumper.exWorld []).disk := by
  intro ss h
  have := ((C110_configured winEnv.home (Dumper.exWorld []).disk none winPair_sane.home).1 _).mpr h
  rw [show getSymServers winEnv.home (Dumper.exWorld []).disk none = .ok none by decide +kernel] at this
  cases this

/-- C116 applied to a missing file: the cause is the one described, and nothing is written. -/
example : ∀ code out', Exits winEnv (str% "1.0") 4 winCrashOptions (Dumper.exWorld []) Run.exOrders Output.emptyWorld code out' ↔
    code = 101 ∧ out' = Output.emptyWorld := by
  obtain ⟨c, hact, hc⟩ := (C115_config 4 winCrashOptions).2 rfl
  have hno : ∀ b, ¬ PathHolds winEnv.net.cab (Dumper.exWorld []).disk (str% "C:\\d\\" ++ str% "a") b := by
    intro b h
    cases h with
    | file h => obtain ⟨_, _, raw, _, _, _, h, _⟩ := h; cases h
    | bundle es h _ => cases h
  have hcont : ContentsCrash winEnv c (str% "C:\\d\\" ++ str% "a") (str% "a") (Dumper.exWorld []) := .byPath hc.search.2.1 hc.search.2.2 hno
  exact C116_sure winEnv (str% "1.0") 4 winCrashOptions rfl (str% "C:\\d\\") (str% "a")
    ⟨str% "C:\\", str% "d\\", rfl, .driveRooted 'C' '\\' _ (by decide) (by decide), .inr ⟨str% "d", '\\', rfl, by decide⟩⟩ (winProper_of (by decide)) rfl
    (by rintro id (h | h) <;> cases h) ⟨(fun h => by cases h), fun h => by cases h⟩ (Dumper.exWorld []) (winCrash_sane [] (by simp)) winNone_caches
    Run.exOrders Output.emptyWorld c hc
    (by
      intro b w1 h
      cases h with
      | byPath _ _ _ h => exact absurd h (hno b)
      | byId id _ _ _ h =>
        rw [hc.search.2.1, hc.search.2.2] at h
        rcases h with h | ⟨_, h⟩ <;> cases h) (.contents hcont)

def winNoOutput : Env := { winEnv with io := { Output.goodDisk with create := fun p => p != str% "o" } }

theorem winD_plain : PlainDir (str% "D:\\") := ⟨_, _, _, .driveRooted 'D' '\\' _ (by decide) (by decide)⟩

/-- C116 applied to an output file that cannot be created, with a store (where the symbol file is left) and without. -/
example : (∀ code out', Exits winNoOutput (str% "1.0") 4 { winCrashOptions with output := some (str% "o"), store := none } (winCrashDisk [1]) Run.exOrders
      Output.emptyWorld code out' ↔ code = 101 ∧ out' = Output.emptyWorld) ∧
    ∃ out1, out1.files (str% "D:\\lib.so\\E1\\lib.so.sym") ≠ none ∧
      ∀ code out', Exits winNoOutput (str% "1.0") 4 { winCrashOptions with output := some (str% "o"), store := some (str% "D:\\") } (winCrashDisk [1])
        Run.exOrders Output.emptyWorld code out' ↔ code = 101 ∧ out' = out1 := by
  refine ⟨(C116_create winNoOutput (fun t => by simp [winNoOutput, Output.goodDisk, Output.fullDisk]) (str% "1.0") 4 { winCrashOptions with output := some (str% "o"), store := none } rfl
    (str% "C:\\d\\a") rfl (by intro v h; cases h) (winCrashDisk [1]) Run.exOrders Output.emptyWorld _ rfl _ rfl _ rfl (fun h => by cases h)).2.1 (str% "o") rfl
    (by decide) rfl rfl, _, ?_, (C116_create winNoOutput (fun t => by simp [winNoOutput, Output.goodDisk, Output.fullDisk]) (str% "1.0") 4
      { winCrashOptions with output := some (str% "o"), store := some (str% "D:\\") } rfl
    (str% "C:\\d\\a") rfl (by intro v h; cases h) (winCrashDisk [1]) Run.exOrders Output.emptyWorld _ rfl _ rfl _ rfl (fun h => by cases h)).2.2 (str% "o") (str% "D:\\")
    (str% "D:\\lib.so\\E1\\lib.so.sym") (str% "D:\\lib.so\\E1") rfl (by decide) rfl rfl (by decide) ?_ (winProper_of (by decide)) (winProper_of (by decide)) ?_
    (by decide) rfl rfl ?_⟩
  · simp [Output.World.receive]
  · exact winD_plain
  · exact (inStore_iff winD_plain (winProper_of (by decide)) (winProper_of (by decide))).mpr (by decide +kernel)
  · decide +kernel

end WinHost
end DumpSyms
