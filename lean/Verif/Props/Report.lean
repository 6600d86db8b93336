import Verif.Proof.Report
import Verif.Props.Crash
/-!
# C117, C118: what a reported error says

C117: the options for path mappings are accepted exactly when they are fine, and what is said otherwise.  C118: the error that a process
reports, and the message it prints, tell what went wrong.
-/
namespace DumpSyms

namespace Mapping

/-- **C117.** The options for path mappings are accepted exactly when they are fine; an error is reported exactly when something is wrong
with them, and is about the first thing that is. -/
theorem C117_options (env : MapEnv) (ho : ∀ l, (env.order l).Perm l) (varArgs sources destinations : Option (List Str)) (file : Option Str) :
    ((∃ g, new env varArgs sources destinations file = .ok g) ↔ OptionsFine env varArgs sources destinations file) ∧
    ∀ m, new env varArgs sources destinations file = .err m ↔ OptionError env varArgs sources destinations file m :=
  new_iff env ho varArgs sources destinations file

/-- Only one error is right for wrong options. -/
theorem C117_one (env : MapEnv) (ho : ∀ l, (env.order l).Perm l) {varArgs sources destinations : Option (List Str)} {file : Option Str}
    {m m' : Str} (h : OptionError env varArgs sources destinations file m) (h' : OptionError env varArgs sources destinations file m') :
    m = m' ∧ ¬ OptionsFine env varArgs sources destinations file := by
  obtain ⟨n1, n2⟩ := new_iff env ho varArgs sources destinations file
  have e := (n2 m).mpr h
  have e' := (n2 m').mpr h'
  rw [e] at e'
  cases e'
  refine ⟨rfl, fun hf => ?_⟩
  obtain ⟨g, hg⟩ := n1.mpr hf
  rw [e] at hg; cases hg

/-- Whether there is an error, and which. -/
def outcome {α} (r : Res α) : Res Unit := r.map fun _ => ()

theorem outcome_err {α} {r : Res α} {m : Str} (h : outcome r = .err m) : r = .err m := by
  cases r <;> cases h; rfl

theorem outcome_ok {α} {r : Res α} (h : outcome r = .ok ()) : ∃ x, r = .ok x := by
  cases r <;> cases h; exact ⟨_, rfl⟩

/-- The second of three variables has no value; the pairs, which do not match either, are not looked at. -/
example : new sampleEnv (some [str% "a=b", str% "cé", str% "d"]) (some [str% "x"]) none none =
    .err (str% "Invalid pair cé: must be var=value") :=
  ((C117_options sampleEnv (fun l => List.reverse_perm l) _ _ _ _).2 _).mpr
    (.badVar [str% "a=b"] (str% "cé") [str% "d"] rfl (by decide) (by decide))
/-- A file that cannot be read. -/
example : new sampleEnv none none none (some (str% "m.json")) = .err (str% "gone") :=
  ((C117_options sampleEnv (fun l => List.reverse_perm l) _ _ _ _).2 _).mpr
    (.read [] (str% "m.json") _ ⟨(fun _ h => by cases h), fun k x => ⟨(fun h => by cases h), fun h => by
      obtain ⟨_, _, _, h, _⟩ := h; exact absurd (congrArg List.length h) (by simp)⟩⟩ rfl (by decide))
/-- An action of the second pair has no meaning. -/
example : OptionError sampleEnv (some [str% "v=1"]) (some [str% "a", str% "b"]) (some [str% "{v}", str% "x{2}{w}"]) none
    (str% "Invalid action w in mapping string") :=
  ((C117_options sampleEnv (fun l => List.reverse_perm l) _ _ _ _).2 _).mp (outcome_err (by decide))
example : OptionError sampleEnv (some [str% "v=1"]) (some [str% "a", str% "b"]) (some [str% "{v}"]) none
    (str% "mapping-src and mapping-dest must have the same number of elements") :=
  ((C117_options sampleEnv (fun l => List.reverse_perm l) _ _ _ _).2 _).mp (outcome_err (by decide))
example : OptionError { sampleEnv with json := fun _ => none } none none none (some (str% "map.json")) (str% "json") :=
  ((C117_options _ (fun l => List.reverse_perm l) _ _ _ _).2 _).mp (outcome_err (by decide))
example : OptionError sampleEnv none (some [str% "("]) (some [str% "{1}"]) (some (str% "map.json")) (str% "regex") :=
  ((C117_options sampleEnv (fun l => List.reverse_perm l) _ _ _ _).2 _).mp (outcome_err (by decide))
example : OptionsFine sampleEnv (some [str% "v=1"]) (some [str% "a", str% "b"]) (some [str% "{v}", str% "x{2}"]) (some (str% "map.json")) :=
  (C117_options sampleEnv (fun l => List.reverse_perm l) _ _ _ _).1.mp (outcome_ok (by decide))

end Mapping

namespace Dumper

/-- **C118, reading.** Getting something to write from a file gives an error exactly when one of the described things is wrong. -/
theorem C118_reading (env : Env) (ho : ∀ l, (env.map.order l).Perm l) (config : Config) (pre filename : Str) (hdir : DirPart pre)
    (hname : ProperComp filename) (hid : ∀ id, config.debugId = some id ∨ config.codeId = some id → ProperComp id)
    (w : Cache.World) (hsane : Sane env w.disk)
    (hpe : ∀ b w1, Contents env config (pre ++ filename) filename w b w1 → SanePe env b) (m : Str) :
    (readSingle env config (pre ++ filename) w).1 = .err m ↔ ReadError env config (pre ++ filename) filename w m := by
  have hn : Utils.getFilename (pre ++ filename) = .ok filename := by
    unfold Utils.getFilename
    rw [fileName_dirPart hdir hname]
  obtain ⟨p1, p2⟩ := prepare_iff ho (c := config)
  constructor
  · intro h
    generalize hg : getFromId env config (pre ++ filename) filename w = r
    obtain ⟨r, w1⟩ := r
    cases r with
    | panic =>
      unfold readSingle at h
      simp only [hn, hg] at h
      cases h
    | err e =>
      have hr : (readSingle env config (pre ++ filename) w).1 = .err e := by
        unfold readSingle
        simp only [hn, hg]
      rw [hr] at h
      cases h
      obtain ⟨id, servers, w', h1, h2, h3, rfl⟩ := (contents_error_iff (pre := pre) env config w hname hsane hid _).mp (by rw [hg])
      exact .search id servers w' h1 h2 h3
    | ok b =>
      have hcont := (contents_iff env config w hdir hname hsane hid b w1).mp hg
      rw [Run.readSingle_eq hdir hname hsane hid hcont] at h
      cases hp : prepare env config with
      | panic => rw [hp] at h; cases h
      | err e =>
        rw [hp] at h
        cases h
        rcases (p2 _).mp hp with h | ⟨h1, h2, rfl⟩
        · exact .mapping b w1 _ hcont h
        · exact .arch b w1 hcont h1 h2
      | ok x =>
        obtain ⟨mapping, arch⟩ := x
        rw [hp] at h
        obtain ⟨h1, h2⟩ := (p1 arch).mp ⟨mapping, hp⟩
        exact .input b w1 arch m hcont h1 h2 (input_error_of hdir hname (contents_sane hcont hsane) (hpe b w1 hcont) h)
  · intro h
    cases h with
    | search id servers w' h1 h2 h3 =>
      have := (contents_error_iff (pre := pre) env config w hname hsane hid _).mpr ⟨id, servers, w', h1, h2, h3, rfl⟩
      unfold readSingle
      simp only [hn, this]
    | mapping b w1 _ hcont h =>
      rw [Run.readSingle_eq hdir hname hsane hid hcont, (p2 m).mpr (.inl h)]
    | arch b w1 hcont h1 h2 =>
      rw [Run.readSingle_eq hdir hname hsane hid hcont, (p2 _).mpr (.inr ⟨h1, h2, rfl⟩)]
    | input b w1 arch _ hcont h1 h2 h3 =>
      obtain ⟨mapping, hp⟩ := (p1 arch).mpr ⟨h1, h2⟩
      rw [Run.readSingle_eq hdir hname hsane hid hcont, hp]
      exact input_error hdir hname (contents_sane hcont hsane) (hpe b w1 hcont) h3 _ _

end Dumper

namespace Run
open Dumper

/-- What is said when a module cannot be written: it has no call frame information although that was asked for, the directory in the store
cannot be created, or the text, of this size, does not fit. -/
inductive WriteError (io : Output.IoEnv) (o : Options) (info : ObjectInfo) (size : Nat) : Str → Prop
  | cfi : o.checkCfi = true → info.stack = [] → WriteError io o info size (str% "No CFI data")
  | dir (d p parent : Str) : (o.checkCfi = true → info.stack ≠ []) → o.store = some d → d ≠ [] → InStore d info.fileName info.debugId p →
      Path.parent p = some parent → io.mkdirs parent = false → WriteError io o info size (str% "create_dir_all")
  | full (fo : Output.FileOutput) : (o.checkCfi = true → info.stack ≠ []) → Destination o info.fileName info.debugId fo →
      io.room fo < size → WriteError io o info size (str% "write")

end Run

namespace Output

theorem writeTo_err {io : IoEnv} {t : Str} {fo : FileOutput} {w : World} (hch : (io.chunks t).flatten = Utf8.encode t) {m : Str}
    (h : (writeTo io (.ok t) fo w).1 = .err m) : m = str% "write" ∧ io.room fo < (Utf8.encode t).length := by
  rcases writeTo_spec fo w hch with ⟨h1, _⟩ | ⟨_, _, h1⟩
  · rw [h1] at h; cases h
  · obtain ⟨h2, h3⟩ := h1 (by rw [h]; exact fun e => by cases e)
    rw [h] at h2
    cases h2
    exact ⟨rfl, h3⟩

theorem store_cases {io : IoEnv} {extra : Option (List Str)} {out : Out} {checkCfi : Bool} {o : ObjectInfo} {w : World} {t : Str}
    (hn : '/' ∉ o.fileName) (ht : o.display extra = .ok t) (hch : (io.chunks t).flatten = Utf8.encode t) {m : Str}
    (h : (store io extra out checkCfi o w).1 = .err m) :
    (checkCfi = true ∧ o.stack = [] ∧ m = str% "No CFI data") ∨
    ((checkCfi = true → o.stack ≠ []) ∧
      ((∃ p d, (destinations out o).2 = some p ∧ Path.parent p = some d ∧ io.mkdirs d = false ∧ m = str% "create_dir_all") ∨
       ∃ fo, Requested out o fo ∧ io.room fo < (Utf8.encode t).length ∧ m = str% "write")) := by
  unfold store at h
  split at h
  · rename_i hc
    simp only [ObjectInfo.hasStack, Bool.not_not, Bool.and_eq_true, List.isEmpty_iff] at hc
    cases h
    exact .inl ⟨hc.1, hc.2, rfl⟩
  · rename_i hc
    simp only [ObjectInfo.hasStack, Bool.not_not, Bool.and_eq_true, List.isEmpty_iff, not_and] at hc
    refine .inr ⟨hc, ?_⟩
    simp only [ht] at h
    have hfile : ∀ fo w, (destinations out o).1 = some fo → (writeTo io (.ok t) fo w).1 = .err m →
        ∃ fo, Requested out o fo ∧ io.room fo < (Utf8.encode t).length ∧ m = str% "write" := by
      intro fo w hd h
      obtain ⟨rfl, h2⟩ := writeTo_err hch h
      exact ⟨fo, (requested_iff hn).mpr (.inl hd), h2, rfl⟩
    cases h2 : (destinations out o).2 with
    | none =>
      rw [h2] at h
      simp only at h
      cases h1 : (destinations out o).1 with
      | none => rw [h1] at h; cases h
      | some fo => rw [h1] at h; exact .inr (hfile fo _ h1 h)
    | some p =>
      rw [h2] at h
      simp only at h
      generalize hr : writeStore io (.ok t) p w = r at h
      obtain ⟨r, w'⟩ := r
      cases r with
      | panic => cases h
      | ok u =>
        simp only at h
        cases h1 : (destinations out o).1 with
        | none => rw [h1] at h; cases h
        | some fo => rw [h1] at h; exact .inr (hfile fo _ h1 h)
      | err e =>
        simp only [Res.err.injEq] at h
        subst h
        unfold writeStore at hr
        cases hd : Path.parent p with
        | none => rw [hd] at hr; cases hr
        | some d =>
          rw [hd] at hr
          simp only at hr
          split at hr
          · obtain ⟨rfl, h3⟩ := writeTo_err hch (by rw [hr])
            exact .inr ⟨_, (requested_iff hn).mpr (.inr ⟨p, h2, rfl⟩), h3, rfl⟩
          · rename_i hmk
            simp only [Bool.not_eq_true] at hmk
            cases hr
            exact .inl ⟨p, d, rfl, hd, hmk, rfl⟩

theorem store_no_dir {io : IoEnv} {extra : Option (List Str)} {out : Out} {checkCfi : Bool} {o : ObjectInfo} {w : World}
    (hcfi : checkCfi = true → o.stack ≠ []) {p d : Str} (hp : (destinations out o).2 = some p) (hd : Path.parent p = some d)
    (hm : io.mkdirs d = false) : store io extra out checkCfi o w = (.err (str% "create_dir_all"), w) := by
  unfold store
  rw [if_neg (by
    intro h
    simp only [ObjectInfo.hasStack, Bool.not_not, Bool.and_eq_true, List.isEmpty_iff] at h
    exact hcfi h.1 h.2)]
  simp only [hp, writeStore, hd, hm, Bool.false_eq_true, if_false]

end Output

namespace Run
open Dumper

/-- What a process that has one file reports. -/
theorem reports_single {env : Env} {version : Str} {cpus : Nat} {o : Options} {w : Cache.World} {orders : Orders} {out : Output.World} {path : Str}
    (hfile : o.filenames = [path]) {c : Config} (hact : actionOf cpus o = .dump c) (m : Str) :
    Reports env version cpus o w orders out m ↔
      (∀ v ∈ o.extraInfo.getD [], Main.InfoLine v) ∧ (singleFile env (some (Infos version o)) c path w out).1 = .err m := by
  constructor
  · intro h
    cases h with
    | mk extra m out' h ha =>
      have hinfo : ∀ v ∈ o.extraInfo.getD [], Main.InfoLine v := by
        intro v hv
        apply Classical.byContradiction
        intro hb
        rw [(Main.C55_rejected version o.extraInfo o.noGenerator).mpr ⟨v, hv, hb⟩] at h
        cases h
      refine ⟨hinfo, ?_⟩
      rw [extra_ok (version := version) hinfo] at h
      cases h
      rw [hact] at ha
      generalize hr : (Res.err m : Res Unit) = r at ha
      cases ha with
      | several config ws r out' hlen hw hs => rw [hfile] at hlen; exact absurd rfl hlen
      | single config g hg => rw [hfile] at hg; cases hg; rfl
  · rintro ⟨hinfo, h⟩
    refine .mk _ m (singleFile env (some (Infos version o)) c path w out).2.2 (extra_ok (version := version) hinfo) ?_
    rw [hact, ← h]
    exact Acts.single c path hfile

theorem readError_of {env : Env} {c c' : Config} (h1 : c.debugId = c'.debugId) (h2 : c.codeId = c'.codeId) (h3 : c.symbolServer = c'.symbolServer)
    (h4 : c.arch = c'.arch) (h5 : c.mappingVar = c'.mappingVar) (h6 : c.mappingSrc = c'.mappingSrc) (h7 : c.mappingDest = c'.mappingDest)
    (h8 : c.mappingFile = c'.mappingFile) {path filename : Str} {w : Cache.World} {m : Str}
    (h : ReadError env c path filename w m) : ReadError env c' path filename w m := by
  cases h with
  | search id servers w' e1 e2 e3 => exact .search id servers w' (by rw [← h1, ← h2]; exact e1) (h3 ▸ e2) e3
  | mapping b w1 _ e1 e2 => exact .mapping b w1 m (contents_of h1 h2 h3 e1) (by rw [← h5, ← h6, ← h7, ← h8]; exact e2)
  | arch b w1 e1 e2 e3 => exact .arch b w1 (contents_of h1 h2 h3 e1) (by rw [← h5, ← h6, ← h7, ← h8]; exact e2) (h4 ▸ e3)
  | input b w1 arch _ e1 e2 e3 e4 =>
    exact .input b w1 arch m (contents_of h1 h2 h3 e1) (by rw [← h5, ← h6, ← h7, ← h8]; exact e2) (h4 ▸ e3) (h3 ▸ e4)

theorem readError_same {env : Env} {cpus : Nat} {o : Options} {c c' : Config} (hc : Configures cpus o c) (hc' : Configures cpus o c')
    {path filename : Str} {w : Cache.World} {m : Str} (h : ReadError env c path filename w m) : ReadError env c' path filename w m := by
  obtain ⟨r1, r2, r3⟩ := hc.search
  obtain ⟨q1, q2, q3⟩ := hc'.search
  obtain ⟨m1, m2, m3, m4⟩ := hc.mapping
  obtain ⟨k1, k2, k3, k4⟩ := hc'.mapping
  exact readError_of (by rw [r2, q2]) (by rw [r3, q3]) (by rw [r1, q1]) (by rw [hc.reading.1, hc'.reading.1]) (by rw [m1, k1]) (by rw [m2, k2])
    (by rw [m3, k3]) (by rw [m4, k4]) h

/-- **C118, one file.** If one of the described things is wrong, the process says so, ends with status 1, and has written nothing. -/
theorem C118_reported (env : Env) (ho : ∀ l, (env.map.order l).Perm l) (version : Str) (cpus : Nat) (o : Options) (hla : o.listArch = false)
    (pre filename : Str) (hdir : DirPart pre) (hname : ProperComp filename) (hfile : o.filenames = [pre ++ filename])
    (hid : ∀ id, o.debugId = some id ∨ o.codeId = some id → ProperComp id) (hinfo : ∀ v ∈ o.extraInfo.getD [], Main.InfoLine v)
    (w : Cache.World) (hsane : Sane env w.disk) (orders : Orders) (out : Output.World)
    (config : Config) (hcfg : Configures cpus o config)
    (hpe : ∀ b w1, Contents env config (pre ++ filename) filename w b w1 → SanePe env b)
    (m : Str) (h : ReadError env config (pre ++ filename) filename w m) :
    (∀ m', Reports env version cpus o w orders out m' ↔ m' = m) ∧
    ∀ code out', Exits env version cpus o w orders out code out' ↔ code = 1 ∧ out' = out := by
  obtain ⟨c, hact, hc⟩ := (C64_config cpus o).2 hla
  obtain ⟨r1, r2, r3⟩ := hc.search
  obtain ⟨q1, q2, q3⟩ := hcfg.search
  have hcont : ∀ {b w1}, Contents env c (pre ++ filename) filename w b w1 → Contents env config (pre ++ filename) filename w b w1 :=
    contents_of (by rw [r2, q2]) (by rw [r3, q3]) (by rw [r1, q1])
  have hr := (C118_reading env ho c pre filename hdir hname (by rw [r2, r3]; exact hid) w hsane (fun b w1 h => hpe b w1 (hcont h)) m).mpr
    (readError_same hcfg hc h)
  have h1 : (singleFile env (some (Infos version o)) c (pre ++ filename) w out).1 = .err m ∧
      (singleFile env (some (Infos version o)) c (pre ++ filename) w out).2.2 = out := by
    unfold singleFile
    simp only [hr, and_self]
  refine ⟨fun m' => ?_, fun code out' => ?_⟩
  · rw [reports_single hfile hact, h1.1]
    simp only [Res.err.injEq]
    exact ⟨fun h => h.2.symm, fun h => ⟨hinfo, h.symm⟩⟩
  · rw [exits_single hfile hact, h1.1, h1.2]
    constructor
    · rintro (⟨⟨v, h1, h2⟩, _⟩ | ⟨_, h1, h2⟩)
      · exact absurd (hinfo v h1) h2
      · exact ⟨h1, h2⟩
    · rintro ⟨h1, h2⟩
      exact .inr ⟨hinfo, h1, h2⟩

/-- **C118, one file, the causes.** What the process says is right: one of the described things is wrong with what is read, and nothing
has been written, or the module made cannot be written as described. -/
theorem C118_cause (env : Env) (ho : ∀ l, (env.map.order l).Perm l) (hch : ∀ t, (env.io.chunks t).flatten = Utf8.encode t)
    (version : Str) (cpus : Nat) (o : Options) (hla : o.listArch = false)
    (pre filename : Str) (hdir : DirPart pre) (hname : ProperComp filename) (hfile : o.filenames = [pre ++ filename])
    (hid : ∀ id, o.debugId = some id ∨ o.codeId = some id → ProperComp id)
    (w : Cache.World) (hsane : Sane env w.disk) (orders : Orders) (out : Output.World)
    (config : Config) (hcfg : Configures cpus o config)
    (hpe : ∀ b w1, Contents env config (pre ++ filename) filename w b w1 → SanePe env b)
    (m : Str) (h : Reports env version cpus o w orders out m) :
    (ReadError env config (pre ++ filename) filename w m ∧ ∀ code out', Exits env version cpus o w orders out code out' → out' = out) ∨
    ∃ b w1 mapping arch obj name pe peName platform opts w' info t, Contents env config (pre ++ filename) filename w b w1 ∧
      env.parsers.arch o.arch = some arch ∧
      DumpedFrom env b (pre ++ filename) filename arch o.symbolServer w1 obj name pe peName platform opts w' ∧
      Mapping.new env.map o.mappingVar o.mappingSrc o.mappingDest o.mappingFile = .ok mapping ∧
      ObjectInfo.fromObject (cenv env platform (if opts then mapping else none) obj) (o.inlines && opts) platform obj name pe peName = .ok info ∧
      info.display (some (Infos version o)) = .ok t ∧ WriteError env.io o info (Utf8.encode t).length m := by
  obtain ⟨c, hact, hc⟩ := (C64_config cpus o).2 hla
  obtain ⟨r1, r2, r3⟩ := hc.search
  obtain ⟨q1, q2, q3⟩ := hcfg.search
  obtain ⟨m1, m2, m3, m4⟩ := hc.mapping
  obtain ⟨n1, n2⟩ := hc.reading
  have hid' : ∀ id, c.debugId = some id ∨ c.codeId = some id → ProperComp id := by rw [r2, r3]; exact hid
  have hcont : ∀ {b w1}, Contents env c (pre ++ filename) filename w b w1 → Contents env config (pre ++ filename) filename w b w1 :=
    contents_of (by rw [r2, q2]) (by rw [r3, q3]) (by rw [r1, q1])
  have hpe' : ∀ b w1, Contents env c (pre ++ filename) filename w b w1 → SanePe env b := fun b w1 h => hpe b w1 (hcont h)
  obtain ⟨hinfo, hs⟩ := (reports_single hfile hact m).mp h
  by_cases hre : (readSingle env c (pre ++ filename) w).1 = .err m
  · have := (C118_reading env ho c pre filename hdir hname hid' w hsane hpe' m).mp hre
    have hre := readError_same hc hcfg this
    exact .inl ⟨hre, fun code out' he => (((C118_reported env ho version cpus o hla pre filename hdir hname hfile hid hinfo w hsane orders out config
      hcfg hpe m hre).2 code out').mp he).2⟩
  right
  generalize hrs : readSingle env c (pre ++ filename) w = y at hre
  obtain ⟨y, w2⟩ := y
  unfold singleFile at hs
  simp only [hrs] at hs
  cases y with
  | panic => cases hs
  | err e => cases hs; exact absurd rfl hre
  | ok info =>
    simp only at hs
    have hn : Utils.getFilename (pre ++ filename) = .ok filename := by
      unfold Utils.getFilename
      rw [fileName_dirPart hdir hname]
    generalize hg : getFromId env c (pre ++ filename) filename w = r
    obtain ⟨r, w1⟩ := r
    cases r with
    | panic =>
      unfold readSingle at hrs
      simp only [hn, hg] at hrs
      cases hrs
    | err e =>
      unfold readSingle at hrs
      simp only [hn, hg] at hrs
      cases hrs
    | ok b =>
      have hcc := (contents_iff env c w hdir hname hsane hid' b w1).mp hg
      rw [readSingle_eq hdir hname hsane hid' hcc] at hrs
      cases hp : prepare env c with
      | panic => rw [hp] at hrs; cases hrs
      | err e => rw [hp] at hrs; cases hrs
      | ok x =>
        obtain ⟨mapping, arch⟩ := x
        rw [hp] at hrs
        simp only at hrs
        rw [r1] at hrs
        obtain ⟨hp1, hp2⟩ := prepare_ok.mp hp
        rw [m1, m2, m3, m4] at hp1
        rw [n1] at hp2
        obtain ⟨obj, name, pe, peName, platform, opts, hd, hx⟩ := C81_sound env arch o.symbolServer hdir hname (contents_sane (hcont hcc) hsane)
          (hpe' b w1 hcc) mapping c.emitInlines hrs
        obtain ⟨t, ht⟩ := (ObjectInfo.fromObject_guards (P := True) _ _ _ _ _ _ _ (fun _ _ _ _ _ _ _ _ => trivial)
          (fun _ _ _ _ _ _ _ _ => trivial) (fun _ _ _ => trivial)).gives info hx (some (Infos version o))
        obtain ⟨f1, f2, f3, _⟩ := fromObject_header hx
        have hslash : '/' ∉ info.fileName := by rw [f1]; exact fileNameOnly_no_slash _
        rw [n2] at hx
        refine ⟨b, w1, mapping, arch, obj, name, pe, peName, platform, opts, w2, info, t, hcont hcc, hp2, hd, hp1, hx, ht, ?_⟩
        rcases Output.store_cases hslash ht (hch t) hs with ⟨h1, h2, rfl⟩ | ⟨hcfi, ⟨p, d, h1, h2, h3, rfl⟩ | ⟨fo, h1, h2, rfl⟩⟩
        · exact .cfi (hc.checkCfi ▸ h1) h2
        · obtain ⟨dir, hd1, hd2, hd3⟩ : ∃ dir, o.store = some dir ∧ dir ≠ [] ∧ Output.symStorePath info dir = some p := by
            have hout : c.output = Output.Out.ofOptions o.output o.store := by
              simp only [actionOf, hla, Bool.false_eq_true, if_false, Action.dump.injEq] at hact
              rw [← hact]
            rw [hout] at h1
            have hnz : ∀ dir, Output.symStorePath info dir = some p → dir ≠ [] := fun dir h => (Output.symStorePath_some h).1
            cases hst : o.store with
            | none =>
              cases hou : o.output with
              | none => rw [hst, hou] at h1; cases h1
              | some f => rw [hst, hou] at h1; cases h1
            | some dir =>
              cases hou : o.output with
              | none => rw [hst, hou] at h1; exact ⟨dir, rfl, hnz dir h1, h1⟩
              | some f => rw [hst, hou] at h1; exact ⟨dir, rfl, hnz dir h1, h1⟩
          refine .dir dir p d (hc.checkCfi ▸ hcfi) hd1 hd2 ?_ h2 h3
          have := (hc.destinations info (.path p)).mp ((Output.requested_iff hslash).mpr (.inr ⟨p, h1, rfl⟩))
          have hreq : Output.Requested (.store dir) info (.path p) := (Output.requested_iff hslash).mpr (.inr ⟨p, hd3, rfl⟩)
          cases hreq with
          | file h => rcases h with h | ⟨_, h⟩ <;> cases h
          | store h h1 h2 =>
            rcases h with h | ⟨_, h⟩
            · cases h; exact h2
            · cases h
        · exact .full fo (hc.checkCfi ▸ hcfi) ((hc.destinations info fo).mp h1) h2

/-- **C118, writing.** A module without call frame information, when that is asked for, and a directory of the store that cannot be created, are
reported, with nothing written. -/
theorem C118_unwritten (env : Env) (version : Str) (cpus : Nat) (o : Options) (hla : o.listArch = false) (path : Str) (hfile : o.filenames = [path])
    (hinfo : ∀ v ∈ o.extraInfo.getD [], Main.InfoLine v) (w : Cache.World) (orders : Orders) (out : Output.World)
    (config : Config) (hcfg : actionOf cpus o = .dump config) (info : ObjectInfo) (hread : (readSingle env config path w).1 = .ok info) :
    (o.checkCfi = true → info.stack = [] → (∀ m, Reports env version cpus o w orders out m ↔ m = str% "No CFI data") ∧
      ∀ code out', Exits env version cpus o w orders out code out' ↔ code = 1 ∧ out' = out) ∧
    ((o.checkCfi = true → info.stack ≠ []) → '/' ∉ info.fileName →
      ∀ d p parent, o.store = some d → d ≠ [] → InStore d info.fileName info.debugId p → Path.parent p = some parent →
      env.io.mkdirs parent = false → (∀ m, Reports env version cpus o w orders out m ↔ m = str% "create_dir_all") ∧
        ∀ code out', Exits env version cpus o w orders out code out' ↔ code = 1 ∧ out' = out) := by
  have hout : config.output = Output.Out.ofOptions o.output o.store ∧ config.checkCfi = o.checkCfi := by
    simp only [actionOf, hla, Bool.false_eq_true, if_false, Action.dump.injEq] at hcfg
    rw [← hcfg]
    exact ⟨rfl, rfl⟩
  have key : ∀ e, Output.store env.io (some (Infos version o)) config.output config.checkCfi info out = (.err e, out) →
      (∀ m, Reports env version cpus o w orders out m ↔ m = e) ∧
        ∀ code out', Exits env version cpus o w orders out code out' ↔ code = 1 ∧ out' = out := by
    intro e he
    have h1 : (singleFile env (some (Infos version o)) config path w out).1 = .err e ∧
        (singleFile env (some (Infos version o)) config path w out).2.2 = out := by
      unfold singleFile
      simp only [hread, he, and_self]
    refine ⟨fun m' => ?_, fun code out' => ?_⟩
    · rw [reports_single hfile hcfg, h1.1]
      simp only [Res.err.injEq]
      exact ⟨fun h => h.2.symm, fun h => ⟨hinfo, h.symm⟩⟩
    · rw [exits_single hfile hcfg, h1.1, h1.2]
      constructor
      · rintro (⟨⟨v, h1, h2⟩, _⟩ | ⟨_, h1, h2⟩)
        · exact absurd (hinfo v h1) h2
        · exact ⟨h1, h2⟩
      · rintro ⟨h1, h2⟩
        exact .inr ⟨hinfo, h1, h2⟩
  refine ⟨fun h1 h2 => key _ ?_, fun hcfi hslash d p parent hst hd hin hpar hm => key _ ?_⟩
  · rw [hout.2, h1]
    exact Output.C28_no_cfi _ _ _ _ _ h2
  · have hreq : Output.Requested (.store d) info (.path p) := .store (.inl rfl) hd hin
    have hp : Output.symStorePath info d = some p := by
      rcases (Output.requested_iff hslash).mp hreq with h | ⟨q, h, e⟩
      · cases h
      · cases e; exact h
    refine Output.store_no_dir (hout.2 ▸ hcfi) (p := p) ?_ hpar hm
    rw [hout.1, hst]
    cases o.output with
    | none => exact hp
    | some f => exact hp

/-- **C118, several files.** A run over several files reports an error exactly when the options are wrong, and says what. -/
theorem C118_several (env : Env) (ho : ∀ l, (env.map.order l).Perm l) (version : Str) (cpus : Nat) (o : Options) (hla : o.listArch = false)
    (hlen : o.filenames.length ≠ 1) (w : Cache.World) (orders : Orders) (out : Output.World) (m : Str) :
    Reports env version cpus o w orders out m ↔ (∀ v ∈ o.extraInfo.getD [], Main.InfoLine v) ∧
      (Mapping.OptionError env.map o.mappingVar o.mappingSrc o.mappingDest o.mappingFile m ∨
        Mapping.OptionsFine env.map o.mappingVar o.mappingSrc o.mappingDest o.mappingFile ∧ env.parsers.arch o.arch = none ∧ m = str% "arch") := by
  obtain ⟨c, hact, hc⟩ := (C64_config cpus o).2 hla
  obtain ⟨m1, m2, m3, m4⟩ := hc.mapping
  have hp := (prepare_iff ho (c := c)).2 m
  rw [m1, m2, m3, m4, hc.reading.1] at hp
  rw [← hp]
  constructor
  · intro h
    cases h with
    | mk extra m out' h ha =>
      have hinfo : ∀ v ∈ o.extraInfo.getD [], Main.InfoLine v := by
        intro v hv
        apply Classical.byContradiction
        intro hb
        rw [(Main.C55_rejected version o.extraInfo o.noGenerator).mpr ⟨v, hv, hb⟩] at h
        cases h
      refine ⟨hinfo, ?_⟩
      rw [hact] at ha
      generalize hr : (Res.err m : Res Unit) = r at ha
      cases ha with
      | single config g hg => rw [hg] at hlen; exact absurd rfl hlen
      | several config ws r out' hlen hw hs =>
        cases hs with
        | badOptions m' h => cases hr; exact h
        | badMapping h => cases hr
        | returned mapping arch mo h _ _ => cases hr
        | crashed mapping arch mo h _ _ => cases hr
  · rintro ⟨hinfo, h⟩
    refine .mk _ m out (extra_ok (version := version) hinfo) ?_
    rw [hact]
    exact .several c (fun _ => w) _ _ hlen (fun _ => .start) (.badOptions m h)


/-! ## Samples -/

/-- What is in the file of the sample. -/
theorem crash_contents {c : Config} (hc : Configures 4 crashOptions c) {b b' : Bytes} {w1 : Cache.World}
    (h : Contents exEnv c (str% "/d/" ++ str% "a") (str% "a") (crashDisk b) b' w1) : b' = b ∧ w1 = crashDisk b := by
  cases h with
  | byPath _ _ _ h =>
    obtain ⟨p, q, n, raw, h1, _, _, _, h2⟩ := h
    cases h2 with
    | packed stem e x entry before after b h => cases h
    | plain h =>
      cases h1 with
      | file _ h => cases h; exact ⟨rfl, rfl⟩
      | bundle es e _ h => cases h
  | byId id _ _ _ h =>
    rw [hc.search.2.1, hc.search.2.2] at h
    rcases h with h | ⟨_, h⟩ <;> cases h

/-- A file of no known format: this is said, and nothing is written. -/
example : (∀ m, Reports exEnv (str% "1.0") 4 crashOptions (crashDisk [5]) exOrders Output.emptyWorld m ↔ m = str% "Unknown file format") ∧
    ∀ code out', Exits exEnv (str% "1.0") 4 crashOptions (crashDisk [5]) exOrders Output.emptyWorld code out' ↔
      code = 1 ∧ out' = Output.emptyWorld := by
  obtain ⟨c, hact, hc⟩ := (C64_config 4 crashOptions).2 rfl
  have hcont : Contents exEnv c (str% "/d/" ++ str% "a") (str% "a") (crashDisk [5]) [5] (crashDisk [5]) :=
    .byPath _ hc.search.2.1 hc.search.2.2
      ⟨str% "/d/a", str% "/d/", str% "a", [5], .file _ rfl, rfl, .inr rfl, (by unfold ProperComp; decide), .plain rfl⟩
  obtain ⟨m1, m2, m3, m4⟩ := hc.mapping
  refine C118_reported exEnv (fun l => List.reverse_perm l) (str% "1.0") 4 crashOptions rfl (str% "/d/") (str% "a") (.inr rfl)
    (by unfold ProperComp; decide) rfl (by rintro id (h | h) <;> cases h) (by intro v h; cases h) (crashDisk [5])
    (crashSane _ (by intro x hx es; simp at hx; subst hx; exact fun h => by cases h)) exOrders Output.emptyWorld c hc
    (fun b w1 h => ?_) _ (.input [5] _ (str% "x86_64") _ hcont ?_ (by rw [hc.reading.1]; decide) (.format rfl))
  · obtain ⟨rfl, _⟩ := crash_contents hc h
    intro pe recorded h
    cases h
  · rw [m1, m2, m3, m4]
    exact ((Mapping.C117_options exEnv.map (fun l => List.reverse_perm l) none none none none).1).mp ⟨_, rfl⟩

/-- Other errors. -/
example : Reports exEnv (str% "1.0") 4 crashOptions (crashDisk [1, 9]) exOrders Output.emptyWorld (str% "elf") ∧
    Reports exEnv (str% "1.0") 4 { crashOptions with arch := str% "x86" } (crashDisk [4]) exOrders Output.emptyWorld
      (str% "Cannot find a valid object for architecture x86 in file a") ∧
    Reports exEnv (str% "1.0") 4 { crashOptions with arch := str% "vax" } (crashDisk [1]) exOrders Output.emptyWorld (str% "arch") ∧
    Reports exEnv (str% "1.0") 4 { crashOptions with debugId := some (str% "A1") } (crashDisk [1]) exOrders Output.emptyWorld
      (str% "Impossible to get file a with id A1") ∧
    Reports { exEnv with io := { Output.fullDisk with capacity := 16 } } (str% "1.0") 4 crashOptions (crashDisk [1]) exOrders Output.emptyWorld (str% "write") ∧
    Reports { exEnv with io := { Output.goodDisk with mkdirs := fun _ => false } } (str% "1.0") 4 crashOptions (crashDisk [1]) exOrders
      Output.emptyWorld (str% "create_dir_all") := by
  refine ⟨?_, ?_, ?_, ?_, ?_, ?_⟩ <;>
    exact (reports_single (path := str% "/d/a") rfl rfl _).mpr ⟨(by intro v h; cases h), by decide +kernel⟩

/-- ELF files without call frame information. -/
def bareElf : ObjInput := { exObj .elf (str% "E1") (str% "x86_64") none with unwind := none }
def bareEnv : Env := { exEnv with parsers := { exParsers with elf := fun _ => .ok bareElf } }

/-- A module without call frame information, when it has to have some. -/
example (m : Str) : Reports bareEnv (str% "1.0") 4 { crashOptions with checkCfi := true } (crashDisk [1]) exOrders Output.emptyWorld m ↔
    m = str% "No CFI data" := by
  have hs : ((readSingle bareEnv (match actionOf 4 { crashOptions with checkCfi := true } with | .dump c => c | _ => exConfig) (str% "/d/a")
    (crashDisk [1])).1.map fun i => i.stack) = .ok [] := by decide +kernel
  generalize hr : (readSingle bareEnv _ (str% "/d/a") (crashDisk [1])).1 = r at hs
  cases r with
  | panic => cases hs
  | err e => cases hs
  | ok info =>
    exact ((C118_unwritten bareEnv (str% "1.0") 4 { crashOptions with checkCfi := true } rfl (str% "/d/a") rfl (by intro v h; cases h)
      (crashDisk [1]) exOrders Output.emptyWorld _ rfl info hr).1 rfl (Res.ok.inj hs)).1 m

/-- Two files, and an architecture that does not exist. -/
example (w : Cache.World) (m : Str) : Reports exEnv (str% "1.0") 4 { exOptions [str% "/d/a", str% "/d/b"] with arch := str% "vax" } w exOrders
    Output.emptyWorld m ↔ m = str% "arch" := by
  rw [C118_several exEnv (fun l => List.reverse_perm l) _ _ _ rfl (by decide)]
  have hf : Mapping.OptionsFine exEnv.map none none none none :=
    (Mapping.C117_options exEnv.map (fun l => List.reverse_perm l) none none none none).1.mp ⟨_, rfl⟩
  constructor
  · rintro ⟨_, h | ⟨_, _, h⟩⟩
    · exact absurd hf (Mapping.C117_one exEnv.map (fun l => List.reverse_perm l) h h).2
    · exact h
  · rintro rfl
    exact ⟨(by intro v h; cases h), .inr ⟨hf, rfl, rfl⟩⟩

end Run
end DumpSyms
