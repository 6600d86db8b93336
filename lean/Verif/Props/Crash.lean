import Verif.Proof.CrashInput
import Verif.Proof.CrashCollect
import Verif.Props.Process
/-!
# C86: when a run on one file crashes

A run that goes wrong should report an error, with status 1.  The program also crashes (a panic, status 101): C86 is false, see the
witnesses.  Here are all the causes of a crash of a run on one file; those of `SureCrash` always crash, with nothing written.
-/
namespace DumpSyms

namespace Mapping

/-- Making the path mappings crashes exactly when the variables are well formed and the mapping file cannot be read (given that the lists
of sources and destinations have at least one element, as they have on a command line). -/
theorem new_crash_iff (env : MapEnv) (varArgs sources destinations : Option (List Str)) (file : Option Str) (h1 : sources ≠ some [])
    (h2 : destinations ≠ some []) :
    new env varArgs sources destinations file = .panic ↔
      (∀ v ∈ varArgs.getD [], '=' ∈ v) ∧ ∃ f, file = some f ∧ env.read f = .panic := by
  have hvars : (∃ out, getVariables varArgs = .ok out) ↔ ∀ v ∈ varArgs.getD [], '=' ∈ v := by
    cases varArgs with
    | none => simp [getVariables]
    | some vs =>
      simp only [getVariables, Option.getD_some]
      suffices h : ∀ m, (∃ out, variablesLoop vs m = .ok out) ↔ ∀ v ∈ vs, '=' ∈ v from h []
      induction vs with
      | nil => intro m; simp [variablesLoop]
      | cons v vs ih =>
        intro m
        rw [variablesLoop]
        cases hs : splitEq v with
        | none =>
          have := splitEq_none.mp hs
          simp [this]
        | some x =>
          have : '=' ∈ v := by
            apply Classical.byContradiction
            intro h
            rw [splitEq_none.mpr h] at hs; cases hs
          simp only [ih, List.mem_cons, forall_eq_or_imp, this, true_and]
  constructor
  · intro h
    have hr : ∃ f, file = some f ∧ env.read f = .panic := by
      apply Classical.byContradiction
      intro hno
      exact C38_no_panic_partial env (fun f hf hr => hno ⟨f, hf, hr⟩) ⟨fun h => h2 h.2, fun h => h1 h.1⟩ h
    refine ⟨?_, hr⟩
    rw [← hvars]
    unfold new at h
    cases hv : getVariables varArgs with
    | ok out => exact ⟨_, rfl⟩
    | err m => rw [hv] at h; cases h
    | panic =>
      cases varArgs with
      | none => cases hv
      | some vs => exact absurd hv (variablesLoop_no_panic _ _)
  · rintro ⟨h, f, rfl, hr⟩
    obtain ⟨out, ho⟩ := hvars.mpr h
    unfold new
    rw [ho]
    simp only [Res.bind_ok, getMappingsFromFile, MappingsFile.new, hr]
    rfl

end Mapping

namespace Output

theorem writeTo_crash {io : IoEnv} {t : Str} {fo : FileOutput} {w : World} :
    (writeTo io (.ok t) fo w).1 = .panic ↔ ∃ p, fo = .path p ∧ io.create p = false := by
  have hopen : opens io fo = false ↔ ∃ p, fo = .path p ∧ io.create p = false := by
    cases fo <;> simp [opens]
  rw [← hopen]
  unfold writeTo
  cases opens io fo with
  | false => simp
  | true =>
    simp only [if_true, reduceCtorEq, iff_false]
    split <;> exact fun h => by cases h

/-- Writing a module crashes only if a file asked for cannot be created. -/
theorem store_crash {io : IoEnv} {extra : Option (List Str)} {out : Out} {checkCfi : Bool} {o : ObjectInfo} {w : World} {t : Str}
    (hn : '/' ∉ o.fileName) (ht : o.display extra = .ok t) (h : (store io extra out checkCfi o w).1 = .panic) :
    ∃ p, Requested out o (.path p) ∧ io.create p = false := by
  unfold store at h
  split at h
  · cases h
  · simp only [ht] at h
    have hfile : ∀ fo w, (destinations out o).1 = some fo → (writeTo io (.ok t) fo w).1 = .panic →
        ∃ p, Requested out o (.path p) ∧ io.create p = false := by
      intro fo w hd h
      obtain ⟨p, rfl, hc⟩ := writeTo_crash.mp h
      exact ⟨p, (requested_iff hn).mpr (.inl hd), hc⟩
    cases h2 : (destinations out o).2 with
    | none =>
      rw [h2] at h
      simp only at h
      cases h1 : (destinations out o).1 with
      | none => rw [h1] at h; cases h
      | some fo => rw [h1] at h; exact hfile fo _ h1 h
    | some p =>
      rw [h2] at h
      simp only at h
      obtain ⟨d, hd⟩ : ∃ d, Path.parent p = some d := by
        cases out with
        | file f => cases h2
        | store dir => exact symStorePath_parent h2
        | fileAndStore f dir => exact symStorePath_parent h2
      generalize hr : writeStore io (.ok t) p w = r at h
      obtain ⟨r, w'⟩ := r
      cases r with
      | err m => cases h
      | ok u =>
        simp only at h
        cases h1 : (destinations out o).1 with
        | none => rw [h1] at h; cases h
        | some fo => rw [h1] at h; exact hfile fo _ h1 h
      | panic =>
        unfold writeStore at hr
        rw [hd] at hr
        simp only at hr
        split at hr
        · obtain ⟨q, hq, hc⟩ := writeTo_crash.mp (by rw [hr])
          cases hq
          exact ⟨p, (requested_iff hn).mpr (.inr ⟨p, h2, rfl⟩), hc⟩
        · cases hr

/-- If there is one destination, a file whose directories can be made and which cannot be created, writing crashes. -/
theorem store_crash_of {io : IoEnv} {extra : Option (List Str)} {out : Out} {checkCfi : Bool} {o : ObjectInfo} {w : World} {t : Str}
    (hn : '/' ∉ o.fileName) (ht : o.display extra = .ok t) (hcfi : checkCfi = true → o.stack ≠ []) {p : Str}
    (hreq : ∀ fo, Requested out o fo ↔ fo = .path p) (hm : ∀ d, io.mkdirs d = true) (hc : io.create p = false) :
    (store io extra out checkCfi o w).1 = .panic := by
  unfold store
  rw [if_neg (by
    intro h
    simp only [ObjectInfo.hasStack, Bool.not_not, Bool.and_eq_true, List.isEmpty_iff] at h
    exact hcfi h.1 h.2)]
  simp only [ht]
  cases h2 : (destinations out o).2 with
  | none =>
    rcases (requested_iff hn).mp ((hreq (.path p)).mpr rfl) with h | ⟨q, h, _⟩
    · simp only [h]
      exact writeTo_crash.mpr ⟨p, rfl, hc⟩
    · rw [h2] at h; cases h
  | some q =>
    have := (hreq (.path q)).mp ((requested_iff hn).mpr (.inr ⟨q, h2, rfl⟩))
    cases this
    obtain ⟨d, hd⟩ : ∃ d, Path.parent p = some d := by
      cases out with
      | file f => cases h2
      | store dir => exact symStorePath_parent h2
      | fileAndStore f dir => exact symStorePath_parent h2
    have hw : (writeStore io (.ok t) p w).1 = .panic := by
      unfold writeStore
      rw [hd]
      simp only [hm d, if_true]
      exact writeTo_crash.mpr ⟨p, rfl, hc⟩
    simp only
    generalize writeStore io (.ok t) p w = r at hw
    obtain ⟨r, w'⟩ := r
    cases hw
    rfl

end Output

namespace Run
open Dumper

/-- A run on one file always crashes, with nothing written: an extra INFO line is malformed, the contents of the file cannot be got, the
mapping file or the input cannot be read, or the embedded debug data is not within the file. -/
inductive SureCrash (env : Env) (o : Options) (config : Config) (path filename : Str) (w : Cache.World) : Prop
  | info (v : Str) : v ∈ o.extraInfo.getD [] → ¬ Main.InfoLine v → SureCrash env o config path filename w
  | contents : ContentsCrash env config path filename w → SureCrash env o config path filename w
  | mapping (b : Bytes) (w1 : Cache.World) : Contents env config path filename w b w1 → MappingCrash env config →
      SureCrash env o config path filename w
  | input (b : Bytes) (w1 : Cache.World) (mapping : Option (List Mapping.Generator)) (arch : Str) : Contents env config path filename w b w1 →
      Mapping.new env.map o.mappingVar o.mappingSrc o.mappingDest o.mappingFile = .ok mapping → env.parsers.arch o.arch = some arch →
      InputCrash env b path o.symbolServer w1 → SureCrash env o config path filename w
  | embedded (b : Bytes) (w1 : Cache.World) (mapping : Option (List Mapping.Generator)) (arch : Str) (obj : ObjInput) (name : Str)
      (pe : Option ObjInput) (peName : Option Str) (platform : Platform) (opts : Bool) (w' : Cache.World) (fs : List (Option Func)) (h : Section) :
      Contents env config path filename w b w1 →
      Mapping.new env.map o.mappingVar o.mappingSrc o.mappingDest o.mappingFile = .ok mapping → env.parsers.arch o.arch = some arch →
      DumpedFrom env b path filename arch o.symbolServer w1 obj name pe peName platform opts w' → obj.functions = .ok fs →
      obj.EmbeddedIn h → obj.data.length < h.offset + h.size → SureCrash env o config path filename w

/-- What else a run on one file can crash on: something in the object that is dumped, or a destination that cannot be created. -/
inductive LateCrash (env : Env) (o : Options) (config : Config) (path filename : Str) (w : Cache.World) : Prop
  | object (b : Bytes) (w1 : Cache.World) (rules : List Mapping.Rule) (arch : Str) (obj : ObjInput) (name : Str)
      (pe : Option ObjInput) (peName : Option Str) (platform : Platform) (opts : Bool) (w' : Cache.World) :
      Contents env config path filename w b w1 →
      Mapping.Configured env.map o.mappingVar o.mappingSrc o.mappingDest o.mappingFile rules → env.parsers.arch o.arch = some arch →
      DumpedFrom env b path filename arch o.symbolServer w1 obj name pe peName platform opts w' →
      ObjectCrash env (if opts then rules else []) platform obj → LateCrash env o config path filename w
  | create (b : Bytes) (w1 : Cache.World) (arch : Str) (obj : ObjInput) (name : Str)
      (pe : Option ObjInput) (peName : Option Str) (platform : Platform) (opts : Bool) (w' : Cache.World) (last p : Str) :
      Contents env config path filename w b w1 → env.parsers.arch o.arch = some arch →
      DumpedFrom env b path filename arch o.symbolServer w1 obj name pe peName platform opts w' →
      AfterLast '/' (if obj.format = .elf ∨ obj.format = .machO then obj.name.getD name else name) last →
      Destination o last obj.debugId (.path p) → env.io.create p = false → LateCrash env o config path filename w

/-- What the process does on one file. -/
theorem exits_single {env : Env} {version : Str} {cpus : Nat} {o : Options} {w : Cache.World} {orders : Orders} {out : Output.World} {path : Str}
    (hfile : o.filenames = [path]) {c : Config} (hact : actionOf cpus o = .dump c) (code : Nat) (out' : Output.World) :
    Exits env version cpus o w orders out code out' ↔
      ((∃ v ∈ o.extraInfo.getD [], ¬ Main.InfoLine v) ∧ code = 101 ∧ out' = out) ∨
      ((∀ v ∈ o.extraInfo.getD [], Main.InfoLine v) ∧ code = exitStatus (singleFile env (some (Infos version o)) c path w out).1 ∧
        out' = (singleFile env (some (Infos version o)) c path w out).2.2) := by
  by_cases hinfo : ∀ v ∈ o.extraInfo.getD [], Main.InfoLine v
  · have hextra := extra_ok (version := version) hinfo
    constructor
    · intro h
      right
      refine ⟨hinfo, ?_⟩
      cases h with
      | badInfo h => exact absurd hextra (h _)
      | acts extra r out' h ha =>
        rw [hextra] at h; cases h
        rw [hact] at ha
        cases ha with
        | several config ws r out' hlen hw hs => rw [hfile] at hlen; exact absurd rfl hlen
        | single config g hg => rw [hfile] at hg; cases hg; exact ⟨rfl, rfl⟩
    · rintro (⟨⟨v, h1, h2⟩, _⟩ | ⟨_, rfl, rfl⟩)
      · exact absurd (hinfo v h1) h2
      · exact .acts _ _ _ hextra (hact ▸ Acts.single c path hfile)
  · have hbad : ∃ v ∈ o.extraInfo.getD [], ¬ Main.InfoLine v := by
      simpa only [Classical.not_forall, exists_prop] using hinfo
    have hpanic := (Main.C55_rejected version o.extraInfo o.noGenerator).mpr hbad
    constructor
    · intro h
      left
      refine ⟨hbad, ?_⟩
      cases h with
      | badInfo h => exact ⟨rfl, rfl⟩
      | acts extra r out' h ha => rw [hpanic] at h; cases h
    · rintro (⟨_, rfl, rfl⟩ | ⟨h, _⟩)
      · exact .badInfo fun e he => by rw [hpanic] at he; cases he
      · exact absurd h hinfo

/-- A run on one file ends, in one way, with status 0, 1 or 101. -/
theorem C86_ends (env : Env) (version : Str) (cpus : Nat) (o : Options) (hla : o.listArch = false) (path : Str) (hfile : o.filenames = [path])
    (w : Cache.World) (orders : Orders) (out : Output.World) :
    ∃ code out', (∀ code' out'', Exits env version cpus o w orders out code' out'' ↔ code' = code ∧ out'' = out') ∧
      (code = 0 ∨ code = 1 ∨ code = 101) := by
  obtain ⟨c, hact, hc⟩ := (C64_config cpus o).2 hla
  by_cases hinfo : ∀ v ∈ o.extraInfo.getD [], Main.InfoLine v
  · refine ⟨exitStatus (singleFile env (some (Infos version o)) c path w out).1, (singleFile env (some (Infos version o)) c path w out).2.2, fun code' out'' => ?_, ?_⟩
    · rw [exits_single hfile hact]
      constructor
      · rintro (⟨⟨v, h1, h2⟩, _⟩ | ⟨_, h1, h2⟩)
        · exact absurd (hinfo v h1) h2
        · exact ⟨h1, h2⟩
      · rintro ⟨h1, h2⟩
        exact .inr ⟨hinfo, h1, h2⟩
    · cases (singleFile env (some (Infos version o)) c path w out).1 with
      | ok u => exact .inl rfl
      | err m => exact .inr (.inl rfl)
      | panic => exact .inr (.inr rfl)
  · have hbad : ∃ v ∈ o.extraInfo.getD [], ¬ Main.InfoLine v := by
      simpa only [Classical.not_forall, exists_prop] using hinfo
    refine ⟨101, out, fun code' out'' => ?_, .inr (.inr rfl)⟩
    rw [exits_single hfile hact]
    constructor
    · rintro (⟨_, h1, h2⟩ | ⟨h, _⟩)
      · exact ⟨h1, h2⟩
      · exact absurd h hinfo
    · rintro ⟨h1, h2⟩
      exact .inl ⟨hbad, h1, h2⟩

/-- If reading crashes, so does the run, and nothing is written. -/
theorem exits_crash {env : Env} {version : Str} {cpus : Nat} {o : Options} {w : Cache.World} {orders : Orders} {out : Output.World} {path : Str}
    (hfile : o.filenames = [path]) {c : Config} (hact : actionOf cpus o = .dump c) (h : (readSingle env c path w).1 = .panic) (code : Nat)
    (out' : Output.World) : Exits env version cpus o w orders out code out' ↔ code = 101 ∧ out' = out := by
  have h1 : (singleFile env (some (Infos version o)) c path w out).1 = .panic ∧ (singleFile env (some (Infos version o)) c path w out).2.2 = out := by
    unfold singleFile
    simp only [h, and_self]
  rw [exits_single hfile hact, h1.1, h1.2]
  constructor
  · rintro (⟨_, h1, h2⟩ | ⟨_, h1, h2⟩) <;> exact ⟨h1, h2⟩
  · rintro ⟨h1, h2⟩
    by_cases hinfo : ∀ v ∈ o.extraInfo.getD [], Main.InfoLine v
    · exact .inr ⟨hinfo, h1, h2⟩
    · exact .inl ⟨by simpa only [Classical.not_forall, exists_prop] using hinfo, h1, h2⟩

/-- A path without a last name (`/`, `..`) crashes the run. -/
theorem C86_no_name (env : Env) (version : Str) (cpus : Nat) (o : Options) (hla : o.listArch = false) (path : Str) (hfile : o.filenames = [path])
    (hno : Path.fileName path = none) (w : Cache.World) (orders : Orders) (out : Output.World) (code : Nat) (out' : Output.World) :
    Exits env version cpus o w orders out code out' ↔ code = 101 ∧ out' = out := by
  obtain ⟨c, hact, hc⟩ := (C64_config cpus o).2 hla
  refine exits_crash hfile hact ?_ code out'
  unfold readSingle Utils.getFilename
  rw [hno]

theorem readSingle_eq {env : Env} {c : Config} {pre filename : Str} {w w1 : Cache.World} {b : Bytes} (hdir : DirPart pre) (hname : ProperComp filename)
    (hsane : Sane env w.disk) (hid : ∀ id, c.debugId = some id ∨ c.codeId = some id → ProperComp id)
    (hcont : Contents env c (pre ++ filename) filename w b w1) :
    readSingle env c (pre ++ filename) w = match prepare env c with
      | .ok (mapping, arch) => getObjectInfo env b (pre ++ filename) filename mapping arch c.symbolServer c.emitInlines w1
      | .err m => (.err m, w1)
      | .panic => (.panic, w1) := by
  have hn : Utils.getFilename (pre ++ filename) = .ok filename := by
    unfold Utils.getFilename
    rw [fileName_dirPart hdir hname]
  have hg := (contents_iff env c w hdir hname hsane hid b w1).mpr hcont
  unfold readSingle
  rw [hn]
  simp only [hg]
  rfl

theorem prepare_ok {env : Env} {c : Config} {mapping : Option (List Mapping.Generator)} {arch : Str} :
    prepare env c = .ok (mapping, arch) ↔ Mapping.new env.map c.mappingVar c.mappingSrc c.mappingDest c.mappingFile = .ok mapping ∧
      env.parsers.arch c.arch = some arch := by
  unfold prepare
  cases Mapping.new env.map c.mappingVar c.mappingSrc c.mappingDest c.mappingFile with
  | ok m =>
    simp only [Res.bind_ok]
    cases env.parsers.arch c.arch with
    | none => simp
    | some a => simp
  | err m => simp
  | panic => simp

theorem prepare_panic {env : Env} {c : Config} :
    prepare env c = .panic ↔ Mapping.new env.map c.mappingVar c.mappingSrc c.mappingDest c.mappingFile = .panic := by
  unfold prepare
  cases Mapping.new env.map c.mappingVar c.mappingSrc c.mappingDest c.mappingFile with
  | ok m =>
    simp only [Res.bind_ok]
    cases env.parsers.arch c.arch with
    | none => simp
    | some a => simp
  | err m => simp
  | panic => simp

/-- The configuration of a run is known from the options. -/
theorem contentsCrash_of {env : Env} {c c' : Config} (h1 : c.debugId = c'.debugId) (h2 : c.codeId = c'.codeId)
    (h3 : c.symbolServer = c'.symbolServer) {path filename : Str} {w : Cache.World}
    (h : ContentsCrash env c path filename w) : ContentsCrash env c' path filename w := by
  cases h with
  | byPath e1 e2 e3 => exact .byPath (h1 ▸ e1) (h2 ▸ e2) e3
  | config id e1 e2 => exact .config id (by rw [← h1, ← h2]; exact e1) (h3 ▸ e2)
  | byId id ss e1 e2 e3 => exact .byId id ss (by rw [← h1, ← h2]; exact e1) (h3 ▸ e2) e3

/-- **C86, the crashes that are sure.** -/
theorem C86_sure (env : Env) (version : Str) (cpus : Nat) (o : Options) (hla : o.listArch = false) (pre filename : Str) (hdir : DirPart pre)
    (hname : ProperComp filename) (hfile : o.filenames = [pre ++ filename])
    (hid : ∀ id, o.debugId = some id ∨ o.codeId = some id → ProperComp id)
    (hargs : o.mappingSrc ≠ some [] ∧ o.mappingDest ≠ some [])
    (w : Cache.World) (hsane : Sane env w.disk) (orders : Orders) (out : Output.World)
    (config : Config) (hcfg : Configures cpus o config)
    (hpe : ∀ b w1, Contents env config (pre ++ filename) filename w b w1 → SanePe env b)
    (h : SureCrash env o config (pre ++ filename) filename w) (code : Nat) (out' : Output.World) :
    Exits env version cpus o w orders out code out' ↔ code = 101 ∧ out' = out := by
  obtain ⟨c, hact, hc⟩ := (C64_config cpus o).2 hla
  obtain ⟨r1, r2, r3⟩ := hc.search
  obtain ⟨q1, q2, q3⟩ := hcfg.search
  obtain ⟨m1, m2, m3, m4⟩ := hc.mapping
  obtain ⟨k1, k2, k3, k4⟩ := hcfg.mapping
  obtain ⟨n1, n2⟩ := hc.reading
  have hid' : ∀ id, c.debugId = some id ∨ c.codeId = some id → ProperComp id := by rw [r2, r3]; exact hid
  have hcont' : ∀ {b w1}, Contents env config (pre ++ filename) filename w b w1 → Contents env c (pre ++ filename) filename w b w1 :=
    contents_of (by rw [r2, q2]) (by rw [r3, q3]) (by rw [r1, q1])
  cases h with
  | info v h1 h2 =>
    rw [exits_single hfile hact]
    constructor
    · rintro (⟨_, h⟩ | ⟨h, _⟩)
      · exact h
      · exact absurd (h v h1) h2
    · intro h; exact .inl ⟨⟨v, h1, h2⟩, h⟩
  | contents h =>
    refine exits_crash hfile hact ?_ code out'
    have hn : Utils.getFilename (pre ++ filename) = .ok filename := by
      unfold Utils.getFilename
      rw [fileName_dirPart hdir hname]
    have := (contents_crash_iff env c w hdir hname hsane hid').mpr (contentsCrash_of (by rw [r2, q2]) (by rw [r3, q3]) (by rw [r1, q1]) h)
    unfold readSingle
    rw [hn]
    simp only [this]
  | mapping b w1 h1 h2 =>
    refine exits_crash hfile hact ?_ code out'
    rw [readSingle_eq hdir hname hsane hid' (hcont' h1)]
    have : prepare env c = .panic := by
      rw [prepare_panic, m1, m2, m3, m4, Mapping.new_crash_iff _ _ _ _ _ hargs.1 hargs.2, ← k1, ← k4]
      exact h2
    rw [this]
  | input b w1 mapping arch h1 h2 h3 h4 =>
    refine exits_crash hfile hact ?_ code out'
    rw [readSingle_eq hdir hname hsane hid' (hcont' h1), prepare_ok.mpr ⟨by rw [m1, m2, m3, m4]; exact h2, by rw [n1]; exact h3⟩]
    simp only
    rw [r1]
    exact input_crash hdir hname (contents_sane h1 hsane) (hpe b w1 h1) h4 _ _ _
  | embedded b w1 mapping arch obj name pe peName platform opts w' fs x h1 h2 h3 h4 h5 h6 h7 =>
    refine exits_crash hfile hact ?_ code out'
    rw [readSingle_eq hdir hname hsane hid' (hcont' h1), prepare_ok.mpr ⟨by rw [m1, m2, m3, m4]; exact h2, by rw [n1]; exact h3⟩]
    simp only
    rw [r1, C81_complete env arch o.symbolServer hdir hname (contents_sane h1 hsane) (hpe b w1 h1) h4]
    exact ObjectInfo.fromObject_embedded h5 h6 h7

/-- **C86, there are no others**: if a run on one file crashes, the crash is a sure one, or comes from the object or a destination.
Missing for C86: these crashes. -/
theorem C86_crash_partial (env : Env) (hsha : ∀ d, ∀ b ∈ env.map.sha512 d, b < 256) (hord : ∀ l, (env.map.order l).Perm l)
    (version : Str) (cpus : Nat) (o : Options) (hla : o.listArch = false) (pre filename : Str) (hdir : DirPart pre)
    (hname : ProperComp filename) (hfile : o.filenames = [pre ++ filename])
    (hid : ∀ id, o.debugId = some id ∨ o.codeId = some id → ProperComp id)
    (hargs : o.mappingSrc ≠ some [] ∧ o.mappingDest ≠ some [])
    (w : Cache.World) (hsane : Sane env w.disk) (orders : Orders) (out : Output.World)
    (config : Config) (hcfg : Configures cpus o config)
    (hpe : ∀ b w1, Contents env config (pre ++ filename) filename w b w1 → SanePe env b)
    (out' : Output.World) (h : Exits env version cpus o w orders out 101 out') :
    SureCrash env o config (pre ++ filename) filename w ∨ LateCrash env o config (pre ++ filename) filename w := by
  obtain ⟨c, hact, hc⟩ := (C64_config cpus o).2 hla
  obtain ⟨r1, r2, r3⟩ := hc.search
  obtain ⟨q1, q2, q3⟩ := hcfg.search
  obtain ⟨m1, m2, m3, m4⟩ := hc.mapping
  obtain ⟨k1, k2, k3, k4⟩ := hcfg.mapping
  obtain ⟨n1, n2⟩ := hc.reading
  have hid' : ∀ id, c.debugId = some id ∨ c.codeId = some id → ProperComp id := by rw [r2, r3]; exact hid
  have hcont' : ∀ {b w1}, Contents env c (pre ++ filename) filename w b w1 → Contents env config (pre ++ filename) filename w b w1 :=
    contents_of (by rw [r2, q2]) (by rw [r3, q3]) (by rw [r1, q1])
  rcases (exits_single hfile hact _ _).mp h with ⟨⟨v, h1, h2⟩, _⟩ | ⟨hinfo, h1, _⟩
  · exact .inl (.info v h1 h2)
  have hcrash : (singleFile env (some (Infos version o)) c (pre ++ filename) w out).1 = .panic := by
    generalize (singleFile env (some (Infos version o)) c (pre ++ filename) w out).1 = x at h1
    cases x with
    | ok u => cases h1
    | err m => cases h1
    | panic => rfl
  have hn : Utils.getFilename (pre ++ filename) = .ok filename := by
    unfold Utils.getFilename
    rw [fileName_dirPart hdir hname]
  by_cases hcc : (getFromId env c (pre ++ filename) filename w).1 = .panic
  · exact .inl (.contents (contentsCrash_of (by rw [r2, q2]) (by rw [r3, q3]) (by rw [r1, q1])
      ((contents_crash_iff env c w hdir hname hsane hid').mp hcc)))
  generalize hg : getFromId env c (pre ++ filename) filename w = r at hcc
  obtain ⟨r, w1⟩ := r
  unfold singleFile at hcrash
  simp only at hcrash
  cases r with
  | panic => exact absurd rfl hcc
  | err m =>
    have : readSingle env c (pre ++ filename) w = (.err m, w1) := by
      unfold readSingle
      rw [hn]
      simp only [hg]
    rw [this] at hcrash; cases hcrash
  | ok b =>
    have hcont := (contents_iff env c w hdir hname hsane hid' b w1).mp hg
    have hcontc := hcont' hcont
    rw [readSingle_eq hdir hname hsane hid' hcont] at hcrash
    generalize hp : prepare env c = x at hcrash
    cases x with
    | err m => cases hcrash
    | panic =>
      left
      refine .mapping b w1 hcontc ?_
      rw [prepare_panic, m1, m2, m3, m4, Mapping.new_crash_iff _ _ _ _ _ hargs.1 hargs.2, ← k1, ← k4] at hp
      exact hp
    | ok x =>
      obtain ⟨mapping, arch⟩ := x
      obtain ⟨hp1, hp2⟩ := prepare_ok.mp hp
      rw [m1, m2, m3, m4] at hp1
      rw [n1] at hp2
      obtain ⟨rules, x1, x2⟩ := C79_rules env hsha hord _ _ _ _ mapping hp1
      simp only at hcrash
      rw [r1] at hcrash
      have hsane1 := contents_sane hcontc hsane
      have hpe1 := hpe b w1 hcontc
      have guards : ∀ obj name pe peName platform (opts : Bool), 
          (fromObject env obj name pe peName platform (if opts then mapping else none) (c.emitInlines && opts)).Guards
            (ObjectCrash env (if opts then rules else []) platform obj) fun m => ∀ extra, ∃ text, m.display extra = .ok text := by
        intro obj name pe peName platform opts
        refine ObjectInfo.fromObject_guards _ _ _ _ _ _ _ ?_ ?_ ?_
        · intro fs hfs f hf cd i hr hpan
          refine .mapping fs f cd i _ hfs hf hr (cenv_records (mapping := if opts then mapping else none).mp (records_iff.mpr rfl)) ?_
          cases opts with
          | true => exact ((x2 platform obj _).1.mp hpan)
          | false => cases hpan
        · intro ps hps p hp n hn hw hb
          exact .name ps p n hw hps hp hn hb
        · intro x hx hl
          exact .embedded x hx hl
      generalize hgo : getObjectInfo env b (pre ++ filename) filename mapping arch o.symbolServer c.emitInlines w1 = y at hcrash
      obtain ⟨y, w2⟩ := y
      cases y with
      | err m => cases hcrash
      | panic =>
        rcases input_crash_of hdir hname hsane1 hpe1 (by rw [hgo]) with hx | ⟨obj, name, pe, peName, platform, opts, w', hd, hx⟩
        · exact .inl (.input b w1 mapping arch hcontc hp1 hp2 hx)
        · exact .inr (.object b w1 rules arch obj name pe peName platform opts w' hcontc x1 hp2 hd
            ((guards obj name pe peName platform opts).panics hx))
      | ok m =>
        obtain ⟨obj, name, pe, peName, platform, opts, hd, hx⟩ := C81_sound env arch o.symbolServer hdir hname hsane1 hpe1 mapping c.emitInlines hgo
        obtain ⟨text, ht⟩ := (guards obj name pe peName platform opts).gives m hx (some (Infos version o))
        obtain ⟨f1, f2, f3, _⟩ := fromObject_header hx
        have hslash : '/' ∉ m.fileName := by rw [f1]; exact fileNameOnly_no_slash _
        obtain ⟨p, hreq, hcr⟩ := Output.store_crash hslash ht hcrash
        have hdest := (hc.destinations m (.path p)).mp hreq
        rw [f3] at hdest
        exact .inr (.create b w1 arch obj name pe peName platform opts w2 m.fileName p hcontc hp2 hd
          (by rw [f1]; exact ⟨fileNameOnly_no_slash _, fileNameOnly_suffix _⟩) hdest hcr)

/-- **C86, the destination.** When everything else is well and the only destination is a file that cannot be created, the run crashes. -/
theorem C86_create (env : Env) (version : Str) (cpus : Nat) (o : Options) (hla : o.listArch = false) (pre filename : Str) (hdir : DirPart pre)
    (hname : ProperComp filename) (hfile : o.filenames = [pre ++ filename])
    (hid : ∀ id, o.debugId = some id ∨ o.codeId = some id → ProperComp id)
    (w : Cache.World) (hsane : Sane env w.disk) (orders : Orders) (out : Output.World)
    (config : Config) (hcfg : Configures cpus o config)
    (hpe : ∀ b w1, Contents env config (pre ++ filename) filename w b w1 → SanePe env b)
    (b : Bytes) (w1 : Cache.World) (hcont : Contents env config (pre ++ filename) filename w b w1)
    (mapping : Option (List Mapping.Generator))
    (hmap : Mapping.new env.map o.mappingVar o.mappingSrc o.mappingDest o.mappingFile = .ok mapping)
    (arch : Str) (harch : env.parsers.arch o.arch = some arch)
    (obj : ObjInput) (name : Str) (pe : Option ObjInput) (peName : Option Str) (platform : Platform) (opts : Bool) (w' : Cache.World)
    (hfrom : DumpedFrom env b (pre ++ filename) filename arch o.symbolServer w1 obj name pe peName platform opts w')
    (m : ObjectInfo) (hok : ObjectInfo.fromObject (cenv env platform (if opts then mapping else none) obj) (o.inlines && opts) platform obj name pe peName = .ok m)
    (hcfi : o.checkCfi = true → m.stack ≠ []) (p : Str) (hdest : ∀ fo, Destination o m.fileName obj.debugId fo ↔ fo = .path p)
    (hmk : ∀ d, env.io.mkdirs d = true) (hcr : env.io.create p = false) :
    ∃ out', ∀ code out'', Exits env version cpus o w orders out code out'' ↔ code = 101 ∧ out'' = out' := by
  obtain ⟨c, hact, hc⟩ := (C64_config cpus o).2 hla
  obtain ⟨r1, r2, r3⟩ := hc.search
  obtain ⟨q1, q2, q3⟩ := hcfg.search
  obtain ⟨m1, m2, m3, m4⟩ := hc.mapping
  obtain ⟨n1, n2⟩ := hc.reading
  have hid' : ∀ id, c.debugId = some id ∨ c.codeId = some id → ProperComp id := by rw [r2, r3]; exact hid
  have hcont' : Contents env c (pre ++ filename) filename w b w1 := contents_of (by rw [q2, r2]) (by rw [q3, r3]) (by rw [q1, r1]) hcont
  have hread : readSingle env c (pre ++ filename) w = (.ok m, w') := by
    rw [readSingle_eq hdir hname hsane hid' hcont', prepare_ok.mpr ⟨by rw [m1, m2, m3, m4]; exact hmap, by rw [n1]; exact harch⟩]
    simp only
    rw [r1, n2, C81_complete env arch o.symbolServer hdir hname (contents_sane hcont hsane) (hpe b w1 hcont) hfrom]
    unfold Dumper.fromObject
    rw [hok]
  obtain ⟨f1, f2, f3, _⟩ := fromObject_header hok
  obtain ⟨text, ht⟩ : ∃ text, m.display (some (Infos version o)) = .ok text :=
    (ObjectInfo.fromObject_guards (P := True) _ _ _ _ _ _ _ (fun _ _ _ _ _ _ _ _ => trivial) (fun _ _ _ _ _ _ _ _ => trivial)
      (fun _ _ _ => trivial)).gives m hok _
  have hcrash : (singleFile env (some (Infos version o)) c (pre ++ filename) w out).1 = .panic := by
    unfold singleFile
    simp only [hread]
    refine Output.store_crash_of (by rw [f1]; exact fileNameOnly_no_slash _) ht (by rw [hc.checkCfi]; exact hcfi) (p := p) ?_ hmk hcr
    intro fo
    have := hdest fo
    rw [← f3] at this
    rw [hc.destinations m fo, ← this]
    rfl
  by_cases hinfo : ∀ v ∈ o.extraInfo.getD [], Main.InfoLine v
  · refine ⟨_, fun code out'' => (exits_single hfile hact _ _).trans ⟨?_, fun h => .inr ⟨hinfo, ?_, h.2⟩⟩⟩
    · rintro (⟨⟨v, h1, h2⟩, _⟩ | ⟨_, h1, h2⟩)
      · exact absurd (hinfo v h1) h2
      · rw [hcrash] at h1
        exact ⟨h1, h2⟩
    · rw [hcrash]; exact h.1
  · have hbad : ∃ v ∈ o.extraInfo.getD [], ¬ Main.InfoLine v := by
      simpa only [Classical.not_forall, exists_prop] using hinfo
    refine ⟨out, fun code out'' => (exits_single hfile hact _ _).trans ⟨?_, fun h => .inl ⟨hbad, h⟩⟩⟩
    rintro (⟨_, h⟩ | ⟨h, _⟩)
    · exact h
    · exact absurd h hinfo

/-! ## Witnesses -/

/-- A run on `/d/a` crashes. -/
def Crashes (env : Env) (o : Options) (w : Cache.World) : Prop :=
  ∃ out', ∀ code out'', Exits env (str% "1.0") 4 o w exOrders Output.emptyWorld code out'' ↔ code = 101 ∧ out'' = out'

theorem crashes_of {env : Env} {o : Options} {w : Cache.World} {path : Str} (hfile : o.filenames = [path]) {c : Config}
    (hact : actionOf 4 o = .dump c) (hinfo : o.extraInfo = none)
    (h : (singleFile env (some (Infos (str% "1.0") o)) c path w Output.emptyWorld).1 = .panic) : Crashes env o w := by
  refine ⟨_, fun code out'' => (exits_single hfile hact _ _).trans ⟨?_, fun h' => .inr ⟨by rw [hinfo]; simp, ?_, h'.2⟩⟩⟩
  · rintro (⟨⟨v, h1, _⟩, _⟩ | ⟨_, h1, h2⟩)
    · rw [hinfo] at h1; cases h1
    · rw [h] at h1; exact ⟨h1, h2⟩
  · rw [h]; exact h'.1

def crashOptions : Options := exOptions [str% "/d/" ++ str% "a"]
def crashDisk (b : Bytes) : Cache.World := exWorld [(str% "/d/a", .file b true)]

/-- An ELF file that has debug data in bytes 8 to 12 of an empty file. -/
def cutElf : ObjInput := { exElf with kind := .elf [⟨some (str% ".gnu_debugdata"), 0, false, 8, 4⟩] }
/-- A PDB with a public symbol whose name starts with `é`. -/
def badPdb : ObjInput := { exObj .pdb (str% "A1") (str% "x86") none with publics := [⟨some (str% "été"), 0x5000, 0⟩] }
def crashEnv : Env := { exEnv with parsers := { exParsers with elf := fun b => if b = [1, 1] then .ok cutElf else exParsers.elf b
                                                               pdb := fun b => if b = [2, 1] then .ok badPdb else exParsers.pdb b } }
/-- All files that mappings may ask for cannot be opened. -/
def shutEnv : Env := { exEnv with map := { Mapping.sampleEnv with read := fun _ => .panic
                                                                  regex := fun _ => some fun s => some fun n => if n = 0 then some s else none } }

/-- **C86 is false**: each of these makes the run crash instead of reporting an error: a file that is not there; a mapping file that cannot
be opened; a damaged PE; a damaged object in a fat binary; embedded debug data outside the file; a symbol name that is not ASCII; a source
file that cannot be opened; an output that cannot be created. -/
theorem C86_witness :
    Crashes exEnv crashOptions (exWorld []) ∧
    Crashes shutEnv { crashOptions with mappingFile := some (str% "m.json") } (crashDisk [1]) ∧
    Crashes exEnv crashOptions (crashDisk [3, 9]) ∧
    Crashes exEnv crashOptions (crashDisk [4, 0]) ∧
    Crashes crashEnv crashOptions (crashDisk [1, 1]) ∧
    Crashes crashEnv crashOptions (crashDisk [2, 1]) ∧
    Crashes shutEnv { crashOptions with mappingSrc := some [str% "x"], mappingDest := some [str% "{digest}"] } (crashDisk [1]) ∧
    Crashes { exEnv with io := { Output.goodDisk with create := fun _ => false } } crashOptions (crashDisk [1]) := by
  refine ⟨?_, ?_, ?_, ?_, ?_, ?_, ?_, ?_⟩ <;> exact crashes_of (path := str% "/d/a") rfl rfl rfl (by decide +kernel)

/-- The same run without any of this. -/
example : (singleFile exEnv (some []) (match actionOf 4 crashOptions with | .dump c => c | _ => exConfig) (str% "/d/a") (crashDisk [1])
    Output.emptyWorld).1 = .ok () := by decide +kernel

theorem crashSane (fs : List (Str × Node)) (h : ∀ x ∈ fs, ∀ es, x.2 ≠ .dir es) : Sane exEnv (exWorld fs).disk := by
  refine ⟨?_, (fun u st raw p h => by cases h), (fun js j h => by cases h), .inr ⟨str% "/", str% "w", rfl, .inr rfl, by unfold ProperComp; decide⟩⟩
  intro q es hq
  exfalso
  simp only [exWorld, WinUtils.diskOf] at hq
  exact h _ (mem_of_lookup hq) es rfl

/-- C86 applied to a missing file: the cause is the one described, and nothing is written. -/
example : ∀ code out', Exits exEnv (str% "1.0") 4 crashOptions (exWorld []) exOrders Output.emptyWorld code out' ↔
    code = 101 ∧ out' = Output.emptyWorld := by
  obtain ⟨c, hact, hc⟩ := (C64_config 4 crashOptions).2 rfl
  have hno : ∀ b, ¬ PathHolds exEnv.net.cab (exWorld []).disk (str% "/d/" ++ str% "a") b := by
    rintro b ⟨p, q, n, raw, h1, _⟩
    cases h1 with
    | file _ h => cases h
    | bundle es e _ h => cases h
  have hcont : ContentsCrash exEnv c (str% "/d/" ++ str% "a") (str% "a") (exWorld []) := .byPath hc.search.2.1 hc.search.2.2 hno
  exact C86_sure exEnv (str% "1.0") 4 crashOptions rfl (str% "/d/") (str% "a") (.inr rfl) (by unfold ProperComp; decide) rfl
    (by rintro id (h | h) <;> cases h) ⟨(fun h => by cases h), fun h => by cases h⟩ (exWorld []) (crashSane [] (by simp)) exOrders Output.emptyWorld c hc
    (by
      intro b w1 h
      cases h with
      | byPath _ _ _ h => exact absurd h (hno b)
      | byId id _ _ _ h =>
        rw [hc.search.2.1, hc.search.2.2] at h
        rcases h with h | ⟨_, h⟩ <;> cases h) (.contents hcont)

end Run
end DumpSyms
