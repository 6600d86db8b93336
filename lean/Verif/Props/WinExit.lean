import Verif.Props.WinRun
/-!
# C115: how the program ends on a Windows machine
-/
namespace DumpSyms
namespace WinHost
open WinPath
open Dumper (Env Config prepare prepare_bad)
open Run (Orders Options Action actionOf exitStatus Infos getExtraInfo_infos prepare_err)

/-! ## Listing the architectures -/

/-- `t` is what is to be said about the file `f`: its name and the architectures of its objects, all of which can be read. -/
def Lists (env : Env) (d : Disk) (f t : Str) : Prop :=
  ∃ (pre name : Str) (buf : Bytes) (objs : List ObjInput), f = pre ++ name ∧ WinDirPart pre ∧ WinProper name ∧ PathHolds env.net.cab d f buf ∧
    env.parsers.archive buf = .ok (objs.map some) ∧
    t = name ++ (if objs.length = 1 then str% " contains the following architecture:\n" else str% " contains the following architectures:\n") ++
      List.intercalate (str% ", ") (objs.map (·.arch)) ++ str% "\n"

/-- The file can be read but is not an archive: `m` says why. -/
def NoArchive (env : Env) (d : Disk) (f m : Str) : Prop :=
  ∃ (pre name : Str) (buf : Bytes), f = pre ++ name ∧ WinDirPart pre ∧ WinProper name ∧ PathHolds env.net.cab d f buf ∧ env.parsers.archive buf = .error m

/-- `texts` is what is to be said about each of the files. -/
inductive ListsAll (env : Env) (d : Disk) : List Str → List Str → Prop where
  | nil : ListsAll env d [] []
  | cons (f t : Str) (fs ts : List Str) : Lists env d f t → ListsAll env d fs ts → ListsAll env d (f :: fs) (t :: ts)

/-- What is assumed of a path given: it has no last name, or ends in a name Windows allows; it is not verbatim. -/
def Given (f : Str) : Prop := WinPath.fileName f = none ∨ ∃ pre name, f = pre ++ name ∧ WinDirPart pre ∧ WinProper name

theorem listArch_spec (env : Env) (f : Str) (hf : Given f) (d : Disk) (hd : ∀ q es, d q = some (.dir es) → ∀ e ∈ es, WinProper e) (out : Output.World) :
    (∃ t, Lists env d f t ∧ listArch env f d out = (.ok (), { out with stdout := out.stdout ++ Utf8.encode t })) ∨
    ((∀ t, ¬ Lists env d f t) ∧ (listArch env f d out).1 ≠ .ok () ∧ (listArch env f d out).2 = out ∧
      ∀ m, (listArch env f d out).1 = .err m ↔ NoArchive env d f m) := by
  have hsome : ∀ objs : List (Option ObjInput), objs.any Option.isNone = false → objs = (objs.filterMap id).map some := by
    intro objs h
    induction objs with
    | nil => rfl
    | cons x xs ih =>
      cases x with
      | none => simp at h
      | some y =>
        rw [List.any_cons, Option.isNone_some, Bool.false_or] at h
        simpa using ih h
  unfold listArch getFilename
  rcases hf with h1 | ⟨pre, name, rfl, hp, hn⟩
  · have hno : ∀ pre name, f = pre ++ name → WinDirPart pre → WinProper name → False := by
      rintro pre name rfl hp hn
      rw [fileName_dir hp hn] at h1; cases h1
    rw [h1]
    exact .inr ⟨(fun t ⟨_, _, _, _, h, h', h'', _⟩ => hno _ _ h h' h''), by simp, rfl,
      fun m => ⟨(fun h => by cases h), fun ⟨_, _, _, h, h', h'', _⟩ => (hno _ _ h h' h'').elim⟩⟩
  · obtain ⟨hread, hpanic⟩ := readFile_dir env.net.cab d hp hn hd
    have hname : ∀ {pre' name'}, pre ++ name = pre' ++ name' → WinDirPart pre' → WinProper name' → name' = name := by
      intro pre' name' e hp' hn'
      have h2 := fileName_dir hp hn
      rw [e, fileName_dir hp' hn'] at h2
      cases h2; rfl
    rw [fileName_dir hp hn]
    simp only
    cases h2 : readFile env.net.cab d (pre ++ name) with
    | err m =>
      exfalso
      have := hpanic (by rintro ⟨b, hb⟩; rw [h2] at hb; cases hb)
      rw [h2] at this; cases this
    | panic =>
      refine .inr ⟨(fun t ⟨_, _, _, _, _, _, _, h, _⟩ => by rw [← hread, h2] at h; cases h), by simp, rfl,
        fun m => ⟨(fun h => by cases h), fun ⟨_, _, _, _, _, _, h, _⟩ => ?_⟩⟩
      rw [← hread, h2] at h; cases h
    | ok buf =>
      simp only [Dumper.machoArchitectures]
      cases h3 : env.parsers.archive buf with
      | error m =>
        refine .inr ⟨(fun t ⟨_, _, _, _, _, _, _, h, h', _⟩ => by rw [← hread, h2] at h; cases h; rw [h3] at h'; cases h'), by simp, rfl, fun m' => ?_⟩
        constructor
        · intro h; cases h; exact ⟨pre, name, buf, rfl, hp, hn, (hread buf).mp h2, h3⟩
        · rintro ⟨_, _, _, _, _, _, h, h'⟩
          rw [← hread, h2] at h; cases h
          rw [h3] at h'; cases h'; rfl
      | ok objs =>
        simp only
        cases h4 : objs.any Option.isNone with
        | true =>
          refine .inr ⟨?_, by simp, rfl, fun m => ⟨(fun h => by simp at h), fun ⟨_, _, _, _, _, _, h, h'⟩ => ?_⟩⟩
          · rintro t ⟨_, _, _, os, _, _, _, h, h', _⟩
            rw [← hread, h2] at h; cases h
            rw [h3] at h'; cases h'
            simp at h4
          · rw [← hread, h2] at h; cases h
            rw [h3] at h'; cases h'
        | false =>
          refine .inl ⟨_, ⟨pre, name, buf, objs.filterMap id, rfl, hp, hn, (hread buf).mp h2, by rw [h3, ← hsome objs h4], rfl⟩, ?_⟩
          simp only [Bool.false_eq_true, if_false, Output.World.receive, List.length_map]
          split <;> simp

/-- **C115, listing.** Files are taken in order; for each one, its name and the architectures of all its objects go to standard output.
The first file that has no name, cannot be read, is not an archive or has an object that cannot be read ends the listing with a
failure (an error if it can be read and is not an archive, else a crash); it and the files after it get no line.  No file is written. -/
theorem C115_list_arch (env : Env) (d : Disk) (hd : ∀ q es, d q = some (.dir es) → ∀ e ∈ es, WinProper e) (files : List Str)
    (hf : ∀ f ∈ files, Given f) (out : Output.World) :
    ∃ done rest texts, files = done ++ rest ∧ ListsAll env d done texts ∧
      (listArchs env d files out).2 = { out with stdout := out.stdout ++ Utf8.encode texts.flatten } ∧
      ((listArchs env d files out).1 = .ok () ↔ rest = []) ∧
      ∀ f fs, rest = f :: fs → (∀ t, ¬ Lists env d f t) ∧ ∀ m, (listArchs env d files out).1 = .err m ↔ NoArchive env d f m := by
  induction files generalizing out with
  | nil => exact ⟨[], [], [], rfl, .nil, by simp [listArchs, Utf8.encode], by simp [listArchs], by intro f fs h; cases h⟩
  | cons f fs ih =>
    rcases listArch_spec env f (hf f (by simp)) d hd out with ⟨t, hl, he⟩ | ⟨hn, hr, ho, hx⟩
    · unfold listArchs
      rw [he]
      simp only
      obtain ⟨done, rest, texts, e1, e2, e3, e4, e5⟩ := ih (fun g hg => hf g (by simp [hg])) { out with stdout := out.stdout ++ Utf8.encode t }
      refine ⟨f :: done, rest, t :: texts, by rw [e1]; rfl, .cons f t done texts hl e2, ?_, e4, e5⟩
      rw [e3]
      simp [Utf8.encode_append]
    · have hm : listArchs env d (f :: fs) out = listArch env f d out := by
        unfold listArchs
        cases h : (listArch env f d out).1 with
        | ok u => exact absurd h hr
        | err m => simp only [h]
        | panic => simp only [h]
      refine ⟨[], f :: fs, [], rfl, .nil, ?_, ?_, ?_⟩
      · rw [hm, ho]; simp [Utf8.encode]
      · rw [hm]
        constructor
        · intro h; exact absurd h hr
        · intro h; cases h
      · intro g gs h; cases h; rw [hm]; exact ⟨hn, hx⟩

/-! ## The options -/

/-- What the options of a dump say: where the symbols go, and how they are made. -/
structure Configures (cpus : Nat) (o : Options) (c : Config) : Prop where
  /-- The destinations: standard output, the file, the store. -/
  destinations : ∀ m fo, Requested c.output m fo ↔
    (o.output = none ∧ o.store = none ∧ fo = .stdout) ∨ (o.output = some ['-'] ∧ fo = .stdout) ∨
    (∃ f, o.output = some f ∧ f ≠ ['-'] ∧ fo = .path f) ∨
    ∃ d p, o.store = some d ∧ d ≠ [] ∧ InStore d m.fileName m.debugId p ∧ fo = .path p
  jobs : ∀ n, c.numJobs = n ↔ Mapping.Numeral o.numJobs n ∨ ((∀ k, ¬ Mapping.Numeral o.numJobs k) ∧ n = cpus)
  search : c.symbolServer = o.symbolServer ∧ c.debugId = o.debugId ∧ c.codeId = o.codeId
  reading : c.arch = o.arch ∧ c.emitInlines = o.inlines
  checkCfi : c.checkCfi = o.checkCfi
  mapping : c.mappingVar = o.mappingVar ∧ c.mappingSrc = o.mappingSrc ∧ c.mappingDest = o.mappingDest ∧ c.mappingFile = o.mappingFile

/-- The destinations that the options name. -/
theorem destinations_of (m : ObjectInfo) (output store : Option Str) (fo : Output.FileOutput) :
    Requested (Output.Out.ofOptions output store) m fo ↔
      (output = none ∧ store = none ∧ fo = .stdout) ∨ (output = some ['-'] ∧ fo = .stdout) ∨
      (∃ f, output = some f ∧ f ≠ ['-'] ∧ fo = .path f) ∨
      ∃ d p, store = some d ∧ d ≠ [] ∧ InStore d m.fileName m.debugId p ∧ fo = .path p := by
  have key : ∀ out, Requested out m fo ↔
      (out = .file fo ∨ ∃ d, out = .fileAndStore fo d) ∨
      ∃ d p, (out = .store d ∨ ∃ f, out = .fileAndStore f d) ∧ d ≠ [] ∧ InStore d m.fileName m.debugId p ∧ fo = .path p := by
    intro out
    constructor
    · intro h
      cases h with
      | file h => exact .inl h
      | store h hd hp => exact .inr ⟨_, _, h, hd, hp, rfl⟩
    · rintro (h | ⟨d, p, h, hd, hp, rfl⟩)
      · exact .file h
      · exact .store h hd hp
  have of : ∀ f, Output.FileOutput.ofStr f = fo ↔ (f = ['-'] ∧ fo = .stdout) ∨ (f ≠ ['-'] ∧ fo = .path f) := by
    intro f
    unfold Output.FileOutput.ofStr
    by_cases h : f = ['-']
    · simp [h, eq_comm]
    · simp [h, eq_comm]
  rw [key]
  unfold Output.Out.ofOptions
  cases output with
  | none =>
    cases store with
    | none => simp [eq_comm]
    | some d => simp [eq_comm]
  | some f =>
    cases store with
    | none => simp [of]
    | some d => simp [of, or_assoc]

/-- **C115, the options.** With `--list-arch` nothing is dumped; otherwise each option has its effect and no other. -/
theorem C115_config (cpus : Nat) (o : Options) :
    (o.listArch = true → actionOf cpus o = .listArch) ∧ (o.listArch = false → ∃ c, actionOf cpus o = .dump c ∧ Configures cpus o c) := by
  refine ⟨fun h => by simp [actionOf, h], fun h => ⟨_, by simp only [actionOf, h, Bool.false_eq_true, if_false]; rfl, ?_⟩⟩
  refine ⟨fun m fo => destinations_of m o.output o.store fo, ?_, ⟨rfl, rfl, rfl⟩, ⟨rfl, rfl⟩, rfl, rfl, rfl, rfl, rfl⟩
  obtain ⟨h1, h2⟩ := Main.C64_jobs cpus o.numJobs
  intro n
  constructor
  · rintro rfl
    by_cases hk : ∃ k, Mapping.Numeral o.numJobs k
    · obtain ⟨k, hk⟩ := hk
      exact .inl (by rw [show Main.numJobs cpus o.numJobs = k from h1 k hk]; exact hk)
    · exact .inr ⟨fun k hk' => hk ⟨k, hk'⟩, h2 fun k hk' => hk ⟨k, hk'⟩⟩
  · rintro (h | ⟨h, rfl⟩)
    · exact h1 n h
    · exact h2 h

theorem bad_options (env : Env) (extra : Option (List Str)) (config : Config) (path : Str) (w : Cache.World) (out : Output.World)
    (hb : env.parsers.arch config.arch = none ∨ ∃ m, Mapping.new env.map config.mappingVar config.mappingSrc config.mappingDest config.mappingFile = .err m) :
    (singleFile env extra config path w out).1 ≠ .ok () ∧ (singleFile env extra config path w out).2.2 = out := by
  refine C113_nothing_written env extra config path w out fun o ho => ?_
  have hp := prepare_bad hb
  unfold readSingle at ho
  split at ho
  · simp only at ho
    split at ho
    · split at ho
      · rename_i h; exact hp _ h
      · cases ho
      · cases ho
    · cases ho
    · cases ho
  · cases ho
  · cases ho

/-! ## The exit status -/

/-- **C115, first part.** A value of `--extra-info` of the wrong form ends the program with status 101 before anything is written. -/
theorem C115_bad_info (env : Env) (version : Str) (cpus : Nat) (o : Options) (w : Cache.World) (orders : Orders) (out out' : Output.World)
    (code : Nat) (h : Exits env version cpus o w orders out code out') (hb : ∃ v ∈ o.extraInfo.getD [], ¬ Main.InfoLine v) :
    code = 101 ∧ out' = out := by
  have hp := (Main.C55_rejected version o.extraInfo o.noGenerator).mpr hb
  cases h with
  | badInfo h => exact ⟨rfl, rfl⟩
  | acts extra r out' h ha => rw [hp] at h; cases h

/-- **C115, second part.** An unknown architecture, or mappings that are not usable, end a dump with a status other than 0, and nothing
is written. -/
theorem C115_bad_options (env : Env) (version : Str) (cpus : Nat) (o : Options) (w : Cache.World) (orders : Orders) (out out' : Output.World)
    (code : Nat) (h : Exits env version cpus o w orders out code out') (hl : o.listArch = false)
    (hb : env.parsers.arch o.arch = none ∨ ∃ m, Mapping.new env.map o.mappingVar o.mappingSrc o.mappingDest o.mappingFile = .err m) :
    code ≠ 0 ∧ out' = out := by
  cases h with
  | badInfo h => exact ⟨by simp, rfl⟩
  | acts extra r out' h ha =>
    generalize hact : actionOf cpus o = act at ha
    have hcfg : ∀ config, act = .dump config → env.parsers.arch config.arch = none ∨
        ∃ m, Mapping.new env.map config.mappingVar config.mappingSrc config.mappingDest config.mappingFile = .err m := by
      rintro config rfl
      simp only [actionOf, hl, Bool.false_eq_true, if_false, Action.dump.injEq] at hact
      subst hact
      exact hb
    cases ha with
    | list => simp [actionOf, hl] at hact
    | single config f hf =>
      obtain ⟨h1, h2⟩ := bad_options env (some extra) config f w out (hcfg config rfl)
      refine ⟨?_, h2⟩
      intro h0
      cases hr : (singleFile env (some extra) config f w out).1 with
      | ok u => exact h1 hr
      | err m => rw [hr] at h0; cases h0
      | panic => rw [hr] at h0; cases h0
    | several config ws r out' hlen hw hs =>
      have hp := prepare_bad (hcfg config rfl)
      cases hs with
      | badOptions m h => exact ⟨by simp [exitStatus], rfl⟩
      | badMapping h => exact ⟨by simp [exitStatus], rfl⟩
      | returned mapping arch s h hr hs => exact absurd h (hp _)
      | crashed mapping arch s h hr hs => exact absurd h (hp _)

/-- **C115 (partial).** When the program ends with status 0: with `--list-arch`, every file was listed; with one file, its module was
read and, if it has a name Windows allows, written as far as the destination takes it, and no other file has changed.  Missing: several files, for which
status 0 does not mean that anything was written (`C115_several_witness`); what C113 is missing. -/
theorem C115_status_partial (env : Env) (version : Str) (cpus : Nat) (o : Options) (w : Cache.World) (orders : Orders)
    (out out' : Output.World) (hd : ∀ q es, w.disk q = some (.dir es) → ∀ e ∈ es, WinProper e) (hg : ∀ f ∈ o.filenames, Given f)
    (hplain : ∀ d, o.store = some d → d ≠ [] → PlainDir d) (h : Exits env version cpus o w orders out 0 out') :
    (∀ v ∈ o.extraInfo.getD [], Main.InfoLine v) ∧
    (o.listArch = true → ∃ texts, ListsAll env w.disk o.filenames texts ∧
      out' = { out with stdout := out.stdout ++ Utf8.encode texts.flatten }) ∧
    (o.listArch = false → ∀ f, o.filenames = [f] → ∃ config m, Configures cpus o config ∧
      (readSingle env config f w).1 = .ok m ∧ (o.checkCfi = true → m.stack ≠ []) ∧
      (WinProper m.fileName → WinProper m.debugId → ∀ t, m.display (some (Infos version o)) = .ok t → (env.io.chunks t).flatten = Utf8.encode t →
        (∀ p d, config.output = .fileAndStore (.path p) d → ¬ InStore d m.fileName m.debugId p) →
        (∀ fo, Requested config.output m fo →
          Output.Holds out out' fo ((Utf8.encode t).take (env.io.room fo)) ∧
          (Utf8.encode t).length ≤ env.io.room fo + env.io.capacity) ∧
        ∀ p, ¬ Requested config.output m (.path p) → out'.files p = out.files p)) := by
  have hex : ∀ r, exitStatus r = 0 → r = .ok () := by
    intro r hr
    cases r with
    | ok u => rfl
    | err m => cases hr
    | panic => cases hr
  generalize hc : (0 : Nat) = code at h
  cases h with
  | badInfo h => cases hc
  | acts extra r out' h ha =>
    have hr := hex r hc.symm
    refine ⟨?_, ?_, ?_⟩
    · intro v hv
      refine Classical.byContradiction fun hn => ?_
      rw [(Main.C55_rejected version o.extraInfo o.noGenerator).mpr ⟨v, hv, hn⟩] at h
      cases h
    · intro hl
      unfold actionOf at ha
      rw [hl] at ha
      simp only [if_true] at ha
      cases ha with
      | list =>
        obtain ⟨done, rest, texts, e1, e2, e3, e4, _⟩ := C115_list_arch env w.disk hd o.filenames hg out
        rw [e4.mp hr, List.append_nil] at e1
        subst e1
        exact ⟨texts, e2, e3⟩
    · intro hl f hf
      obtain ⟨c, hc, hcfg⟩ := (C115_config cpus o).2 hl
      have hps : PlainStore c.output := by
        simp only [actionOf, hl, Bool.false_eq_true, if_false, Action.dump.injEq] at hc
        subst hc
        intro dir hdir hne
        refine hplain dir ?_ hne
        simp only [Output.Out.ofOptions] at hdir
        cases h1 : o.output <;> cases h2 : o.store <;> rw [h1, h2] at hdir <;> rcases hdir with hdir | ⟨fo, hdir⟩ <;> cases hdir <;> rfl
      rw [hc] at ha
      cases ha with
      | several config ws r out' hlen hw hs => rw [hf] at hlen; exact absurd rfl hlen
      | single config g hg =>
        rw [hf] at hg; cases hg
        obtain ⟨m, h1, h2, h3⟩ := C113_success_partial env (some extra) c f w out hps hr
        rw [hcfg.checkCfi] at h2
        have hx := getExtraInfo_infos h
        subst hx
        exact ⟨c, m, hcfg, h1, h2, h3⟩

/-- **C115, third part.** Several files: the status is 1 only for options that are not usable, and then nothing is written. -/
theorem C115_several_status (env : Env) (version : Str) (cpus : Nat) (o : Options) (w : Cache.World) (orders : Orders) (out out' : Output.World)
    (h : Exits env version cpus o w orders out 1 out') (hl : o.listArch = false) (hlen : o.filenames.length ≠ 1) :
    out' = out ∧ (env.parsers.arch o.arch = none ∨
      ∃ m, Mapping.new env.map o.mappingVar o.mappingSrc o.mappingDest o.mappingFile = .err m) := by
  generalize hc : (1 : Nat) = code at h
  cases h with
  | badInfo h => cases hc
  | acts extra r out' h ha =>
    obtain ⟨c, hact, hcfg⟩ := (C115_config cpus o).2 hl
    rw [hact] at ha
    cases ha with
    | single config f hf => rw [hf] at hlen; exact absurd rfl hlen
    | several config ws r out' hlen hw hs =>
      cases hs with
      | badOptions m h =>
        refine ⟨rfl, ?_⟩
        rw [← hcfg.reading.1, ← hcfg.mapping.1, ← hcfg.mapping.2.1, ← hcfg.mapping.2.2.1, ← hcfg.mapping.2.2.2]
        exact prepare_err h
      | badMapping h => cases hc
      | returned mapping arch s h hr hs => cases hc
      | crashed mapping arch s h hr hs => cases hc

end WinHost
end DumpSyms
