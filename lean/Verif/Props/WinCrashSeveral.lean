import Verif.Props.WinCrash
import Verif.Props.CrashSeveral
/-!
# C120: when a run on several files crashes on Windows

As C90, with the paths of Windows.
-/
namespace DumpSyms
namespace WinHost
open WinPath
open Cache (World)
open Dumper (Env Config prepare fromObject ObjectCrash MappingCrash fileNameOnly_no_slash fileNameOnly_suffix)
open Run (Orders Options Action actionOf exitStatus Infos)

/-- What a run on several files can crash on: a malformed extra INFO line, a mapping file that cannot be read, a path without a last name, an input that
cannot be read (in some state of the disk that a worker can meet), an input for which it cannot be found out what to dump, something in an object that is
dumped, or the writing. -/
inductive SeveralCrash (env : Env) (o : Options) (config : Config) (w : World) : Prop
  | info (v : Str) : v ∈ o.extraInfo.getD [] → ¬ Main.InfoLine v → SeveralCrash env o config w
  | mapping : MappingCrash env config → SeveralCrash env o config w
  | noName (path : Str) : path ∈ o.filenames → WinPath.fileName path = none → SeveralCrash env o config w
  | read (path : Str) (w' : World) : path ∈ o.filenames → Meanwhile env w w' → CannotRead env.net.cab w'.disk path → SeveralCrash env o config w
  | input (pre filename : Str) (w' : World) (b : Bytes) : pre ++ filename ∈ o.filenames → WinDirPart pre → WinProper filename → Meanwhile env w w' →
      PathHolds env.net.cab w'.disk (pre ++ filename) b → InputCrash env b pre filename none w' → SeveralCrash env o config w
  | object (pre filename : Str) (w' : World) (b : Bytes) (rules : List Mapping.Rule) (arch : Str) (obj : ObjInput) (name : Str)
      (pe : Option ObjInput) (peName : Option Str) (platform : Platform) (opts : Bool) (w'' : World) :
      pre ++ filename ∈ o.filenames → WinDirPart pre → WinProper filename → Meanwhile env w w' → PathHolds env.net.cab w'.disk (pre ++ filename) b →
      Mapping.Configured env.map o.mappingVar o.mappingSrc o.mappingDest o.mappingFile rules → env.parsers.arch o.arch = some arch →
      DumpedFrom env b pre filename arch none w' obj name pe peName platform opts w'' →
      ObjectCrash env (if opts then rules else []) platform obj → SeveralCrash env o config w
  | write (pre filename : Str) (w' : World) (b : Bytes) (arch : Str) (obj : ObjInput) (name : Str)
      (pe : Option ObjInput) (peName : Option Str) (platform : Platform) (opts : Bool) (w'' : World) (last : Str) :
      pre ++ filename ∈ o.filenames → WinDirPart pre → WinProper filename → Meanwhile env w w' → PathHolds env.net.cab w'.disk (pre ++ filename) b →
      env.parsers.arch o.arch = some arch → DumpedFrom env b pre filename arch none w' obj name pe peName platform opts w'' →
      AfterLast '/' (if obj.format = .elf ∨ obj.format = .machO then obj.name.getD name else name) last →
      WriteCrash env.io o last obj.debugId → SeveralCrash env o config w

/-- What is required of the inputs of a run on several files: their paths have a last name that Windows allows or none, the PE files can be looked into, the
caches are as they should be, and what is dumped is acceptable and small enough for the merged tables to stay below 2^32 entries. -/
structure Mergeable (env : Env) (o : Options) (w : World) (mapping : Option (List Mapping.Generator)) (arch : Str) (k : Nat) : Prop where
  names : ∀ f ∈ o.filenames, Given f
  pes : ∀ f ∈ o.filenames, ∀ w', Meanwhile env w w' → ∀ b, PathHolds env.net.cab w'.disk f b → SanePe env b
  caches : ∀ w', Meanwhile env w w' → SaneCaches env none w'.disk
  dumps : ∀ pre filename, pre ++ filename ∈ o.filenames → ∀ w', Meanwhile env w w' → ∀ b, PathHolds env.net.cab w'.disk (pre ++ filename) b →
    ∀ obj name pe peName platform opts w'', DumpedFrom env b pre filename arch none w' obj name pe peName platform opts w'' →
    ∀ m, fromObject env obj name pe peName platform (if opts then mapping else none) (o.inlines && opts) = .ok m →
      Dumped m ∧ m.files.getMapping.length ≤ k ∧ m.inlineOrigins.length ≤ k
  below : k * o.filenames.length < M32

/-- What is read for an input. -/
theorem parse_eq {env : Env} {config : Config} {mapping : Option (List Mapping.Generator)} {arch : Str} {pre filename : Str} {w : World}
    (hdir : WinDirPart pre) (hname : WinProper filename) :
    parseInput env config mapping arch (pre ++ filename) w = match readFile env.net.cab w.disk (pre ++ filename) with
      | .ok buf => getObjectInfo env buf (pre ++ filename) filename mapping arch none config.emitInlines w
      | .err m => (.err m, w)
      | .panic => (.panic, w) := by
  unfold parseInput getFilename
  rw [fileName_dir hdir hname]
  rfl

theorem parse_no_name {env : Env} {config : Config} {mapping : Option (List Mapping.Generator)} {arch path : Str} {w : World}
    (h : WinPath.fileName path = none) : parseInput env config mapping arch path w = (.panic, w) := by
  unfold parseInput getFilename
  rw [h]

theorem read_panic_iff {cab : Cab} {d : Disk} {pre filename : Str} (hdir : WinDirPart pre) (hname : WinProper filename)
    (hd : ∀ q es, d q = some (.dir es) → ∀ e ∈ es, WinProper e) :
    readFile cab d (pre ++ filename) = .panic ↔ CannotRead cab d (pre ++ filename) := by
  obtain ⟨h1, h2⟩ := readFile_dir cab d hdir hname hd
  constructor
  · intro h b hb
    rw [(h1 b).mpr hb] at h; cases h
  · intro h
    exact h2 fun ⟨b, hb⟩ => h b ((h1 b).mp hb)

/-- **C120, the causes.** If a run on several files crashes, it is for one of the reasons of `SeveralCrash`. -/
theorem C120_causes_partial (env : Env) (hsha : ∀ d, ∀ b ∈ env.map.sha512 d, b < 256) (hord : ∀ l, (env.map.order l).Perm l)
    (version : Str) (cpus : Nat) (o : Options) (hla : o.listArch = false) (hlen : o.filenames.length ≠ 1)
    (hargs : o.mappingSrc ≠ some [] ∧ o.mappingDest ≠ some [])
    (w : World) (hsane : Sane env w.disk) (orders : Orders) (hres : ∀ t, (orders.results t).Perm t) (htab : ∀ l, IterOrder (orders.tables l))
    (out : Output.World) (config : Config) (hcfg : Configures cpus o config) (k : Nat)
    (hmerge : ∀ mapping arch, Mapping.new env.map o.mappingVar o.mappingSrc o.mappingDest o.mappingFile = .ok mapping →
      env.parsers.arch o.arch = some arch → Mergeable env o w mapping arch k)
    (out' : Output.World) (h : Exits env version cpus o w orders out 101 out') : SeveralCrash env o config w := by
  obtain ⟨c, hact, hc⟩ := (C115_config cpus o).2 hla
  obtain ⟨m1, m2, m3, m4⟩ := hc.mapping
  obtain ⟨k1, k2, k3, k4⟩ := hcfg.mapping
  obtain ⟨n1, n2⟩ := hc.reading
  have houtput : c.output = Output.Out.ofOptions o.output o.store := by
    simp only [actionOf, hla, Bool.false_eq_true, if_false, Action.dump.injEq] at hact
    rw [← hact]
  by_cases hinfo : ∀ v ∈ o.extraInfo.getD [], Main.InfoLine v
  swap
  · obtain ⟨v, h1, h2⟩ : ∃ v ∈ o.extraInfo.getD [], ¬ Main.InfoLine v := by simpa only [Classical.not_forall, exists_prop] using hinfo
    exact .info v h1 h2
  have hextra := Run.extra_ok (version := version) hinfo
  generalize hcode : (101 : Nat) = code at h
  cases h with
  | badInfo h => exact absurd hextra (h _)
  | acts extra r out' h ha =>
    rw [hextra] at h; cases h
    rw [hact] at ha
    cases ha with
    | single config g hg => rw [hg] at hlen; exact absurd rfl hlen
    | several config' ws r out' hlen' hw hs =>
      cases hs with
      | badOptions m h => cases hcode
      | returned => cases hcode
      | badMapping h =>
        refine .mapping ?_
        rw [Run.prepare_panic, m1, m2, m3, m4, Mapping.new_crash_iff _ _ _ _ _ hargs.1 hargs.2, ← k1, ← k4] at h
        exact h
      | crashed mapping arch m hp hr hs =>
        obtain ⟨hp1, hp2⟩ := Run.prepare_ok.mp hp
        rw [m1, m2, m3, m4] at hp1
        rw [n1] at hp2
        obtain ⟨hnames, hpes, hcaches, hdumps, hbelow⟩ := hmerge mapping arch hp1 hp2
        obtain ⟨rules, x1, x2⟩ := Dumper.C79_rules env hsha hord _ _ _ _ mapping hp1
        have guards := Run.dump_guards (rules := rules) (fun platform obj p => (x2 platform obj p).1)
        have hfile : ∀ {i : Nat} {f : Str}, o.filenames[i]? = some f →
            (threads env (some (Infos version o)) c o.filenames ws orders mapping arch out).parse i = (parseInput env c mapping arch f (ws i)).1 := by
          intro i f hi
          simp only [threads, hi]
        have hok : ∀ {i : Nat} {x : ObjectInfo},
            (threads env (some (Infos version o)) c o.filenames ws orders mapping arch out).parse i = .ok x →
            ∃ pre filename, pre ++ filename ∈ o.filenames ∧ WinDirPart pre ∧ WinProper filename ∧
              ∃ b obj name pe peName platform opts w'', PathHolds env.net.cab (ws i).disk (pre ++ filename) b ∧
              DumpedFrom env b pre filename arch none (ws i) obj name pe peName platform opts w'' ∧
              fromObject env obj name pe peName platform (if opts then mapping else none) (o.inlines && opts) = .ok x := by
          intro i x hx
          cases hi : o.filenames[i]? with
          | none => simp only [threads, hi] at hx; cases hx
          | some f =>
            have hf := List.mem_of_getElem? hi
            rw [hfile hi] at hx
            rcases hnames f hf with hno | ⟨pre, filename, rfl, hdir, hname⟩
            · rw [parse_no_name hno] at hx; cases hx
            rw [parse_eq hdir hname] at hx
            have hs1 := (hw i).sane hsane
            cases hrd : readFile env.net.cab (ws i).disk (pre ++ filename) with
            | err m => rw [hrd] at hx; cases hx
            | panic => rw [hrd] at hx; cases hx
            | ok b =>
              rw [hrd] at hx
              simp only at hx
              have hh := ((readFile_dir env.net.cab (ws i).disk hdir hname hs1.dirs).1 b).mp hrd
              generalize hgo : getObjectInfo env b (pre ++ filename) filename mapping arch none c.emitInlines (ws i) = y at hx
              obtain ⟨y, w2⟩ := y
              cases hx
              obtain ⟨obj, name, pe, peName, platform, opts, hd, hx⟩ := C112_sound env arch none hdir hname hs1 (hpes _ hf _ (hw i) b hh)
                (hcaches _ (hw i)) mapping c.emitInlines hgo
              rw [n2] at hx
              exact ⟨pre, filename, hf, hdir, hname, b, obj, name, pe, peName, platform, opts, w2, hh, hd, hx⟩
        have hgood : ∀ i x, (threads env (some (Infos version o)) c o.filenames ws orders mapping arch out).parse i = .ok x →
            x.Good ∧ x.files.idToRef.length ≤ k ∧ x.inlineOrigins.length ≤ k := by
          intro i x hx
          obtain ⟨pre, filename, hf, _, _, b, obj, name, pe, peName, platform, opts, w'', h1, h2, h3⟩ := hok hx
          obtain ⟨d1, d2, d3⟩ := hdumps pre filename hf _ (hw i) b h1 _ _ _ _ _ _ _ h2 x h3
          exact ⟨d1.good, by simpa [SourceMap.getMapping] using d2, d3⟩
        cases Threads.C90_threads (threads env (some (Infos version o)) c o.filenames ws orders mapping arch out) (by exact hres) m.s (Threads.moments_reach hr) (.inr (.inr hs)) with
        | parse i hi hpan =>
          have hi : i < o.filenames.length := hi
          have hf := List.getElem_mem hi
          rw [hfile (List.getElem?_eq_getElem hi)] at hpan
          generalize o.filenames[i] = f at hf hpan
          rcases hnames f hf with hno | ⟨pre, filename, rfl, hdir, hname⟩
          · exact .noName f hf hno
          have hs1 := (hw i).sane hsane
          rw [parse_eq hdir hname] at hpan
          cases hrd : readFile env.net.cab (ws i).disk (pre ++ filename) with
          | err m => rw [hrd] at hpan; cases hpan
          | panic => exact .read _ _ hf (hw i) ((read_panic_iff hdir hname hs1.dirs).mp hrd)
          | ok b =>
            rw [hrd] at hpan
            simp only at hpan
            have hh := ((readFile_dir env.net.cab (ws i).disk hdir hname hs1.dirs).1 b).mp hrd
            rcases input_crash_of hdir hname hs1 (hpes _ hf _ (hw i) b hh) (hcaches _ (hw i)) hpan with
              hx | ⟨obj, name, pe, peName, platform, opts, w', hd, hx⟩
            · exact .input pre filename _ b hf hdir hname (hw i) hh hx
            · exact .object pre filename _ b rules arch obj name pe peName platform opts w' hf hdir hname (hw i) hh x1 hp2 hd
                ((guards obj name pe peName platform opts _).panics hx)
        | merge i l x p hn hb hx hp hid hpan =>
          exfalso
          have hk : k * (i :: l).length < M32 := by
            have : (i :: l).length ≤ o.filenames.length := by
              have := List.Nodup.length_le_of_subset hn (l₂ := List.range o.filenames.length) (fun j hj => List.mem_range.mpr (hb j hj))
              simpa using this
            exact Nat.lt_of_le_of_lt (Nat.mul_le_mul_left k this) hbelow
          rw [List.length_cons, Nat.mul_succ] at hk
          obtain ⟨a1, a2, a3⟩ := hgood i x hx
          obtain ⟨b1, b2, b3⟩ := Run.made_good (T := threads env (some (Infos version o)) c o.filenames ws orders mapping arch out) htab hbelow hgood
            ⟨(List.nodup_cons.mp hn).2, fun g hg => hb g (by simp [hg]), hp⟩
          obtain ⟨c', g1, _⟩ := merge_good (htab (i :: l)) a1 b1 hid (by omega) (by omega)
          have hpan : ObjectInfo.merge (orders.tables (i :: l)) x p = .panic := hpan
          rw [g1] at hpan; cases hpan
        | store l x hm hpan =>
          obtain ⟨g, _, _⟩ := Run.made_good (T := threads env (some (Infos version o)) c o.filenames ws orders mapping arch out) htab hbelow hgood hm
          obtain ⟨text, ht⟩ := ObjectInfo.display_of_inlined (o := x) (fun e he => (g.inlines _ _ (SMap.get?_of_mem g.sorted he)).2) (some (Infos version o))
          have hpan : (store env.io (some (Infos version o)) c.output c.checkCfi x out).1 = .panic := hpan
          rw [houtput] at hpan
          have hcr := store_crash ht hpan
          obtain ⟨i, _, y, y1, y2, y3⟩ := Run.made_name hm.2.2
          obtain ⟨pre, filename, hf, hdir, hname, b, obj, name, pe, peName, platform, opts, w'', h1, h2, h3⟩ := hok y1
          obtain ⟨f1, f2, f3, _⟩ := fromObject_header h3
          rw [y2, y3, f3] at hcr
          exact .write pre filename _ b arch obj name pe peName platform opts w'' y.fileName hf hdir hname (hw i) h1 hp2 h2
            (by rw [f1]; exact ⟨fileNameOnly_no_slash _, fileNameOnly_suffix _⟩) hcr

/-- An input that crashes whatever the other workers do: its path has no last name, it cannot be read, or it cannot be found out what to dump. -/
inductive InputSure (env : Env) (w : World) (path : Str) : Prop
  | noName : WinPath.fileName path = none → InputSure env w path
  | named (pre filename : Str) : path = pre ++ filename → WinDirPart pre → WinProper filename →
      (∀ w', Meanwhile env w w' → CannotRead env.net.cab w'.disk path ∨
        ∃ b, PathHolds env.net.cab w'.disk path b ∧ SanePe env b ∧ SaneCaches env none w'.disk ∧ InputCrash env b pre filename none w') →
      InputSure env w path

/-- An input that can be dumped whatever the other workers do. -/
def InputGood (env : Env) (mapping : Option (List Mapping.Generator)) (arch : Str) (w : World) (path : Str) : Prop :=
  ∃ pre filename, path = pre ++ filename ∧ WinDirPart pre ∧ WinProper filename ∧ ∀ w', Meanwhile env w w' →
    ∃ b obj name pe peName platform opts w'' fs mem U V, PathHolds env.net.cab w'.disk path b ∧ SanePe env b ∧ SaneCaches env none w'.disk ∧
      DumpedFrom env b pre filename arch none w' obj name pe peName platform opts w'' ∧
      ObjOk (Dumper.cenv env platform (if opts then mapping else none) obj) mem U V platform obj fs

/-- A run on several files does not come to a good end: an extra INFO line is malformed, the mapping file cannot be read, or an input crashes, the others
being as they should be or crashing as well. -/
inductive SeveralSure (env : Env) (o : Options) (config : Config) (w : World) : Prop
  | info (v : Str) : v ∈ o.extraInfo.getD [] → ¬ Main.InfoLine v → SeveralSure env o config w
  | mapping : MappingCrash env config → SeveralSure env o config w
  | input (mapping : Option (List Mapping.Generator)) (arch path : Str) :
      Mapping.new env.map o.mappingVar o.mappingSrc o.mappingDest o.mappingFile = .ok mapping →
      env.parsers.arch o.arch = some arch → path ∈ o.filenames → InputSure env w path →
      (∀ f ∈ o.filenames, InputSure env w f ∨ InputGood env mapping arch w f) → SeveralSure env o config w

theorem parse_sure {env : Env} {w : World} {path : Str} (hsane : Sane env w.disk)
    (h : InputSure env w path) {w' : World} (hw : Meanwhile env w w') (config : Config) (mapping : Option (List Mapping.Generator)) (arch : Str) :
    (parseInput env config mapping arch path w').1 = .panic := by
  have hs1 := hw.sane hsane
  cases h with
  | noName h => rw [parse_no_name h]
  | named pre filename he hdir hname h =>
    subst he
    rw [parse_eq hdir hname]
    rcases h w' hw with h | ⟨b, h1, h2, h3, h4⟩
    · rw [(read_panic_iff hdir hname hs1.dirs).mpr h]
    · rw [((readFile_dir env.net.cab w'.disk hdir hname hs1.dirs).1 b).mpr h1]
      exact input_crash hdir hname hs1 h2 h3 h4 _ _ _

theorem parse_good {env : Env} {mapping : Option (List Mapping.Generator)} {arch : Str} {w : World} {path : Str} (hsane : Sane env w.disk)
    (h : InputGood env mapping arch w path) {w' : World} (hw : Meanwhile env w w') (config : Config) :
    ∃ m, (parseInput env config mapping arch path w').1 = .ok m := by
  have hs1 := hw.sane hsane
  obtain ⟨pre, filename, rfl, hdir, hname, h⟩ := h
  obtain ⟨b, obj, name, pe, peName, platform, opts, w'', fs, mem, U, V, h1, h2, h3, h4, h5⟩ := h w' hw
  obtain ⟨m, _, _, _, a1, _⟩ := fromObject_spec h5 (config.emitInlines && opts) name pe peName
  refine ⟨m, ?_⟩
  rw [parse_eq hdir hname, ((readFile_dir env.net.cab w'.disk hdir hname hs1.dirs).1 b).mpr h1]
  simp only
  rw [C112_complete env arch none hdir hname hs1 h2 h3 h4]
  exact a1

/-- **C120, sure.** For these reasons a run on several files never ends with status 0 or 1: if it ends, it crashes, with nothing written.  (If the
reason is an input, it may also hang, `C90_crash_or_hang`.) -/
theorem C120_sure (env : Env) (version : Str) (cpus : Nat) (o : Options) (hla : o.listArch = false) (hlen : o.filenames.length ≠ 1)
    (hargs : o.mappingSrc ≠ some [] ∧ o.mappingDest ≠ some [])
    (w : World) (hsane : Sane env w.disk) (orders : Orders) (hres : ∀ t, (orders.results t).Perm t)
    (out : Output.World) (config : Config) (hcfg : Configures cpus o config)
    (h : SeveralSure env o config w) (code : Nat) (out' : Output.World) (hex : Exits env version cpus o w orders out code out') :
    code = 101 ∧ out' = out := by
  obtain ⟨c, hact, hc⟩ := (C115_config cpus o).2 hla
  obtain ⟨m1, m2, m3, m4⟩ := hc.mapping
  obtain ⟨k1, k2, k3, k4⟩ := hcfg.mapping
  obtain ⟨n1, n2⟩ := hc.reading
  cases hex with
  | badInfo h => exact ⟨rfl, rfl⟩
  | acts extra r out' hextra ha =>
    rw [hact] at ha
    cases ha with
    | single config g hg => rw [hg] at hlen; exact absurd rfl hlen
    | several config' ws r out' hlen' hw hs =>
      cases h with
      | info v h1 h2 =>
        rw [(Main.C55_rejected version o.extraInfo o.noGenerator).mpr ⟨v, h1, h2⟩] at hextra; cases hextra
      | mapping h =>
        have : prepare env c = .panic := by
          rw [Run.prepare_panic, m1, m2, m3, m4, Mapping.new_crash_iff _ _ _ _ _ hargs.1 hargs.2, ← k1, ← k4]
          exact h
        cases hs with
        | badOptions m h => rw [this] at h; cases h
        | returned _ _ _ h => rw [this] at h; cases h
        | badMapping h => exact ⟨rfl, rfl⟩
        | crashed _ _ _ h => rw [this] at h; cases h
      | input mapping arch path hp1 hp2 hmem hsure hall =>
        have hprep : prepare env c = .ok (mapping, arch) := Run.prepare_ok.mpr ⟨by rw [m1, m2, m3, m4]; exact hp1, by rw [n1]; exact hp2⟩
        obtain ⟨i, hi, hi'⟩ := List.mem_iff_getElem.mp hmem
        have hi2 : o.filenames[i]? = some path := by rw [List.getElem?_eq_getElem hi, hi']
        have hpan : (threads env (some extra) c o.filenames ws orders mapping arch out).parse i = .panic := by
          simp only [threads, hi2]
          exact parse_sure hsane hsure (hw i) _ _ _
        have herr : ∀ g, g < (threads env (some extra) c o.filenames ws orders mapping arch out).files →
            ∀ m, (threads env (some extra) c o.filenames ws orders mapping arch out).parse g ≠ .err m := by
          intro g hg m h
          have hg : g < o.filenames.length := hg
          have hgm := List.getElem_mem hg
          simp only [threads, List.getElem?_eq_getElem hg] at h
          generalize o.filenames[g] = f at hgm h
          rcases hall f hgm with hx | hx
          · rw [parse_sure hsane hx (hw g)] at h; cases h
          · obtain ⟨x, hx⟩ := parse_good hsane hx (hw g) c
            rw [hx] at h; cases h
        have hno := Threads.C90_no_return (threads env (some extra) c o.filenames ws orders mapping arch out) (by exact hres) hlen i hi hpan herr
        have hquiet : ∀ s, Threads.Reachable (threads env (some extra) c o.filenames ws orders mapping arch out) s → ¬ s.Started := by
          intro s hr hs
          obtain ⟨_, _, _, _, x, h1, _⟩ := Threads.C48_all_merged_first _ (by exact hres) s hr hs i hi
          rw [hpan] at h1; cases h1
        cases hs with
        | badOptions m h => rw [hprep] at h; cases h
        | badMapping h => rw [hprep] at h; cases h
        | returned mapping' arch' m h hr hs =>
          rw [hprep] at h; cases h
          exact absurd hs (hno m.s (Threads.moments_reach hr)).1
        | crashed mapping' arch' m h hr hs =>
          rw [hprep] at h; cases h
          exact ⟨rfl, (Run.quiet hquiet hr).1⟩

/-! ## Witnesses -/

def winGoneOptions : Options := { Run.exOptions [str% "C:\\d\\a", str% "C:\\d\\x"] with inlines := true }
def winGoneConfig : Config := match actionOf 4 winGoneOptions with | .dump c => c | _ => Dumper.exConfig
def winGoneThreads : Threads.Env :=
  threads winEnv (some []) winGoneConfig [str% "C:\\d\\a", str% "C:\\d\\x"] (fun _ => winCrashDisk [1]) Run.exOrders none (str% "x86_64") Output.emptyWorld
def winGoneLast : Threads.Moment :=
  Run.played winGoneThreads (callsOf winEnv.io (some []) winGoneConfig.output winGoneConfig.checkCfi) Output.emptyWorld
    (Run.whole ([.send, .send] ++ Threads.steps 0 7 ++ [.join]))

/-- Two modules named after a share. -/
def winShareOptions : Options := { Run.exOptions [str% "C:\\d\\a", str% "C:\\d\\a"] with output := none, store := some (str% "D:") }
def winShareConfig : Config := match actionOf 4 winShareOptions with | .dump c => c | _ => Dumper.exConfig
def winShareThreads : Threads.Env :=
  threads winEnv (some []) winShareConfig [str% "C:\\d\\a", str% "C:\\d\\a"] (fun _ => winCrashDisk [1, 1]) Run.exOrders none (str% "x86_64") Output.emptyWorld
def winShareLast : Threads.Moment :=
  Run.played winShareThreads (callsOf winEnv.io (some []) winShareConfig.output winShareConfig.checkCfi) Output.emptyWorld
    (Run.whole ([.send, .send] ++ Threads.steps 0 11 ++ [.join]))

/-- **C120 is false**: a run on several files crashes if one of them is not there, if the mapping file cannot be opened, and if the module is
named after a share. -/
theorem C120_witness :
    (∃ out', Exits winEnv (str% "1.0") 4 winGoneOptions (winCrashDisk [1]) Run.exOrders Output.emptyWorld 101 out') ∧
    (∃ out', Exits winShutEnv (str% "1.0") 4 { winGoneOptions with mappingFile := some (str% "m.json") } (winCrashDisk [1]) Run.exOrders
      Output.emptyWorld 101 out') ∧
    (∃ out', Exits winEnv (str% "1.0") 4 winShareOptions (winCrashDisk [1, 1]) Run.exOrders Output.emptyWorld 101 out') := by
  refine ⟨⟨winGoneLast.out, ?_⟩, ⟨Output.emptyWorld, ?_⟩, ⟨winShareLast.out, ?_⟩⟩
  · exact .acts [] .panic _ rfl (.several winGoneConfig (fun _ => winCrashDisk [1]) .panic _ (by decide) (fun _ => .start)
      (.crashed none (str% "x86_64") winGoneLast rfl (Run.played_moments (by decide +kernel)) (by decide +kernel)))
  · exact .acts [] .panic _ rfl (.several _ (fun _ => winCrashDisk [1]) .panic _ (by decide) (fun _ => .start) (.badMapping rfl))
  · exact .acts [] .panic _ rfl (.several winShareConfig (fun _ => winCrashDisk [1, 1]) .panic _ (by decide) (fun _ => .start)
      (.crashed none (str% "x86_64") winShareLast rfl (Run.played_moments (by decide +kernel)) (by decide +kernel)))

def winElf : ObjInput := Dumper.exObj .elf (str% "E1") (str% "x86_64") (some (str% "dir/lib.so"))

theorem winElf_ok : ObjOk (Dumper.cenv winEnv .linux none winElf) sampleMem sampleU sampleV .linux winElf [some mB1] := by
  have href : RefOk (Dumper.cenv winEnv .linux none winElf).src sampleMem sampleU sampleComp sampleFile3 := by
    exact refOk_iff.mpr ⟨(sampleRef (f := sampleFile3) (by simp)).1, by decide +kernel, rfl⟩
  refine ⟨rfl, ⟨by decide, by decide, sampleSort, ?_⟩, (by intro es h; cases h), (fun h => by cases h),
    embeddedInside_of_kind (by intro l h; cases h)⟩
  intro f hf
  simp only [List.mem_cons, Option.some.injEq, List.not_mem_nil, or_false] at hf
  subst hf
  exact .mk _ (fun l hl => by
    simp only [Func.lines, mB1, List.mem_cons, List.not_mem_nil, or_false] at hl
    subst hl; exact href) (fun g hg => by cases hg) (fun g hg => by cases hg)

theorem winGone_sane : Sane winEnv (winCrashDisk [1]).disk :=
  winCrash_sane _ (by intro x hx es; simp at hx; subst hx; exact fun h => by cases h)

theorem winGone_noServer : ∀ servers, getSymServers winEnv.home (winCrashDisk [1]).disk none ≠ .ok (some servers) := by
  intro ss h
  have hn : getSymServers winEnv.home (winCrashDisk [1]).disk none = .ok none := by rfl
  rw [hn] at h
  cases h

theorem winGone_caches {w' : World} (hw : Meanwhile winEnv (winCrashDisk [1]) w') : SaneCaches winEnv none w'.disk := by
  intro ss h
  rw [hw.same_disk winGone_noServer] at h
  exact absurd (((C110_configured winEnv.home (winCrashDisk [1]).disk none winPair_sane.home).1 _).mpr h) (winGone_noServer ss)

theorem winGone_dir : WinDirPart (str% "C:\\d\\") :=
  ⟨str% "C:\\", str% "d\\", rfl, .driveRooted 'C' '\\' _ (by decide) (by decide), .inr ⟨str% "d", '\\', rfl, by decide⟩⟩

theorem winGone_missing {w' : World} (hw : Meanwhile winEnv (winCrashDisk [1]) w') : CannotRead winEnv.net.cab w'.disk (str% "C:\\d\\x") := by
  intro b h
  rw [hw.same_disk winGone_noServer] at h
  cases h with
  | file h => obtain ⟨_, _, raw, _, _, _, h, _⟩ := h; cases h
  | bundle es h _ => cases h

theorem winGone_holds {w' : World} (hw : Meanwhile winEnv (winCrashDisk [1]) w') (b : Bytes) :
    PathHolds winEnv.net.cab w'.disk (str% "C:\\d\\a") b ↔ b = [1] := by
  have hr := (readFile_dir winEnv.net.cab w'.disk (pre := str% "C:\\d\\") (name := str% "a") winGone_dir (winProper_of (by decide)) (hw.sane winGone_sane).dirs).1 b
  rw [hw.same_disk winGone_noServer] at hr ⊢
  have he : readFile winEnv.net.cab (winCrashDisk [1]).disk (str% "C:\\d\\" ++ str% "a") = .ok [1] := by decide +kernel
  rw [he] at hr
  exact hr.symm.trans ⟨fun h => by cases h; rfl, fun h => by rw [h]⟩

/-- C120 applied to the missing file: the run does not end well, and nothing is written. -/
example (code : Nat) (out' : Output.World)
    (h : Exits winEnv (str% "1.0") 4 winGoneOptions (winCrashDisk [1]) Run.exOrders Output.emptyWorld code out') :
    code = 101 ∧ out' = Output.emptyWorld := by
  obtain ⟨c, _, hc⟩ := (C115_config 4 winGoneOptions).2 rfl
  have hx : InputSure winEnv (winCrashDisk [1]) (str% "C:\\d\\x") :=
    .named (str% "C:\\d\\") (str% "x") rfl winGone_dir (winProper_of (by decide)) (fun w' hw => .inl (winGone_missing hw))
  refine C120_sure winEnv (str% "1.0") 4 winGoneOptions rfl (by decide) ⟨(fun h => by cases h), fun h => by cases h⟩ (winCrashDisk [1])
    winGone_sane Run.exOrders (fun t => .refl _) Output.emptyWorld c hc
    (.input none (str% "x86_64") (str% "C:\\d\\x") rfl rfl (by decide) hx ?_) code out' h
  intro f hf
  simp only [winGoneOptions, Run.exOptions, List.mem_cons, List.not_mem_nil, or_false] at hf
  rcases hf with rfl | rfl
  · right
    refine ⟨str% "C:\\d\\", str% "a", rfl, winGone_dir, winProper_of (by decide), fun w' hw => ?_⟩
    exact ⟨[1], winElf, str% "a", none, none, .linux, true, w', [some mB1], sampleMem, sampleU, sampleV, (winGone_holds hw _).mpr rfl,
      (fun pe r h => by cases h), winGone_caches hw, .elf winElf rfl rfl, winElf_ok⟩
  · exact .inl hx

/-- The crash of the first witness has one of the causes. -/
example : ∃ c, Configures 4 winGoneOptions c ∧ SeveralCrash winEnv winGoneOptions c (winCrashDisk [1]) := by
  obtain ⟨c, _, hc⟩ := (C115_config 4 winGoneOptions).2 rfl
  obtain ⟨out', h⟩ := C120_witness.1
  refine ⟨c, hc, C120_causes_partial winEnv Run.exSeveral.sha Run.exSeveral.order (str% "1.0") 4 winGoneOptions rfl (by decide)
    ⟨(fun h => by cases h), fun h => by cases h⟩ (winCrashDisk [1]) winGone_sane Run.exOrders (fun t => .refl _) (fun l t => .refl _)
    Output.emptyWorld c hc 2 ?_ out' h⟩
  intro mapping arch h1 h2
  cases h1; cases h2
  refine ⟨?_, ?_, fun w' hw => winGone_caches hw, ?_, by decide⟩
  · intro f hf
    simp only [winGoneOptions, Run.exOptions, List.mem_cons, List.not_mem_nil, or_false] at hf
    rcases hf with rfl | rfl
    · exact .inr ⟨str% "C:\\d\\", str% "a", rfl, winGone_dir, winProper_of (by decide)⟩
    · exact .inr ⟨str% "C:\\d\\", str% "x", rfl, winGone_dir, winProper_of (by decide)⟩
  · intro f hf w' hw b hb
    simp only [winGoneOptions, Run.exOptions, List.mem_cons, List.not_mem_nil, or_false] at hf
    rcases hf with rfl | rfl
    · cases (winGone_holds hw b).mp hb
      intro pe r h; cases h
    · exact absurd hb (winGone_missing hw b)
  · intro pre filename hf w' hw b hb obj name pe peName platform opts w'' hd m hm
    generalize pre ++ filename = f at hf hb
    simp only [winGoneOptions, Run.exOptions, List.mem_cons, List.not_mem_nil, or_false] at hf
    rcases hf with rfl | rfl
    · cases (winGone_holds hw b).mp hb
      cases hd with
      | elf hk h =>
        cases h
        refine ⟨⟨_, _, _, _, _, _, _, _, _, _, _, _, winElf_ok, rfl, hm⟩, ?_⟩
        cases hm
        exact ⟨Nat.le_of_ble_eq_true rfl, Nat.le_of_ble_eq_true rfl⟩
      | machoOnly o hk => cases hk
      | machoOf o _ _ hk => cases hk
      | pdb o _ hk => cases hk
      | pdbPe o _ _ _ _ _ hk => cases hk
      | pePdb _ _ _ _ _ _ _ _ hk => cases hk
      | pe _ _ _ _ _ _ hk => cases hk
    · exact absurd hb (winGone_missing hw b)

end WinHost
end DumpSyms
