import Verif.Props.Crash
import Verif.Props.ThreadsFail
import Verif.Props.SeveralSamples
/-!
# C90: when a run on several files crashes
-/
namespace DumpSyms
open ObjectInfo

namespace Run
open Dumper

/-- What a run on several files can crash on: a malformed extra INFO line, a mapping file that cannot be read, an input that cannot be read
(in some state of the disk that a worker can meet), an input for which it cannot be found out what to dump, something in an object that is dumped, or a
destination that cannot be created. -/
inductive SeveralCrash (env : Env) (o : Options) (config : Config) (w : Cache.World) : Prop
  | info (v : Str) : v ∈ o.extraInfo.getD [] → ¬ Main.InfoLine v → SeveralCrash env o config w
  | mapping : MappingCrash env config → SeveralCrash env o config w
  | read (path : Str) (w' : Cache.World) : path ∈ o.filenames → Meanwhile env w w' → CannotRead env.net.cab w'.disk path →
      SeveralCrash env o config w
  | input (path : Str) (w' : Cache.World) (b : Bytes) : path ∈ o.filenames → Meanwhile env w w' → PathHolds env.net.cab w'.disk path b →
      InputCrash env b path none w' → SeveralCrash env o config w
  | object (path filename : Str) (w' : Cache.World) (b : Bytes) (rules : List Mapping.Rule) (arch : Str) (obj : ObjInput) (name : Str)
      (pe : Option ObjInput) (peName : Option Str) (platform : Platform) (opts : Bool) (w'' : Cache.World) :
      path ∈ o.filenames → Meanwhile env w w' → PathHolds env.net.cab w'.disk path b →
      Mapping.Configured env.map o.mappingVar o.mappingSrc o.mappingDest o.mappingFile rules → env.parsers.arch o.arch = some arch →
      DumpedFrom env b path filename arch none w' obj name pe peName platform opts w'' →
      ObjectCrash env (if opts then rules else []) platform obj → SeveralCrash env o config w
  | create (path filename : Str) (w' : Cache.World) (b : Bytes) (arch : Str) (obj : ObjInput) (name : Str)
      (pe : Option ObjInput) (peName : Option Str) (platform : Platform) (opts : Bool) (w'' : Cache.World) (last p : Str) :
      path ∈ o.filenames → Meanwhile env w w' → PathHolds env.net.cab w'.disk path b → env.parsers.arch o.arch = some arch →
      DumpedFrom env b path filename arch none w' obj name pe peName platform opts w'' →
      AfterLast '/' (if obj.format = .elf ∨ obj.format = .machO then obj.name.getD name else name) last →
      Destination o last obj.debugId (.path p) → env.io.create p = false → SeveralCrash env o config w

/-- What is required of the inputs of a run on several files: their paths have a last name, the PE files can be looked into, and what is dumped is
acceptable and small enough for the merged tables to stay below 2^32 entries. -/
structure Mergeable (env : Env) (o : Options) (w : Cache.World) (mapping : Option (List Mapping.Generator)) (arch : Str) (k : Nat) : Prop where
  names : ∀ f ∈ o.filenames, ∃ pre filename, f = pre ++ filename ∧ DirPart pre ∧ ProperComp filename
  pes : ∀ f ∈ o.filenames, ∀ w', Meanwhile env w w' → ∀ b, PathHolds env.net.cab w'.disk f b → SanePe env b
  dumps : ∀ f ∈ o.filenames, ∀ w', Meanwhile env w w' → ∀ b, PathHolds env.net.cab w'.disk f b →
    ∀ filename obj name pe peName platform opts w'', DumpedFrom env b f filename arch none w' obj name pe peName platform opts w'' →
    ∀ m, Dumper.fromObject env obj name pe peName platform (if opts then mapping else none) (o.inlines && opts) = .ok m →
      Dumped m ∧ m.files.getMapping.length ≤ k ∧ m.inlineOrigins.length ≤ k
  below : k * o.filenames.length < M32

/-- What the dump of an object can crash on. -/
theorem dump_guards {env : Env} {mapping : Option (List Mapping.Generator)} {rules : List Mapping.Rule}
    (x2 : ∀ platform obj p, ((Dumper.cenv env platform mapping obj).src.mapPanics p = true ↔ Mapping.Unreadable env.map rules p))
    (obj : ObjInput) (name : Str) (pe : Option ObjInput) (peName : Option Str) (platform : Platform) (opts inlines : Bool) :
    (Dumper.fromObject env obj name pe peName platform (if opts then mapping else none) inlines).Guards
      (ObjectCrash env (if opts then rules else []) platform obj) fun m => ∀ extra, ∃ text, m.display extra = .ok text := by
  refine ObjectInfo.fromObject_guards _ _ _ _ _ _ _ ?_ ?_ ?_
  · intro fs hfs f hf cd i hr hpan
    refine .mapping fs f cd i _ hfs hf hr (cenv_records (mapping := if opts then mapping else none).mp (records_iff.mpr rfl)) ?_
    cases opts with
    | true => exact ((x2 platform obj _).mp hpan)
    | false => cases hpan
  · intro ps hps p hp n hn hw hb
    exact .name ps p n hw hps hp hn hb
  · intro x hx hl
    exact .embedded x hx hl

/-- What is read for an input. -/
theorem parse_eq {env : Env} {config : Config} {mapping : Option (List Mapping.Generator)} {arch : Str} {pre filename : Str} {w : Cache.World}
    (hdir : DirPart pre) (hname : ProperComp filename) :
    parseInput env config mapping arch (pre ++ filename) w = match Files.readFile env.net.cab w.disk (pre ++ filename) with
      | .ok buf => getObjectInfo env buf (pre ++ filename) filename mapping arch none config.emitInlines w
      | .err m => (.err m, w)
      | .panic => (.panic, w) := by
  unfold parseInput Utils.getFilename
  rw [fileName_dirPart hdir hname]
  rfl

/-- If the name and id of a module are those of an input. -/
theorem made_name {T : Threads.Env} {l : List Nat} {m : ObjectInfo} (h : Threads.Made T l m) :
    ∃ i ∈ l, ∃ x, T.parse i = .ok x ∧ m.fileName = x.fileName ∧ m.debugId = x.debugId := by
  induction h with
  | one i m hm => exact ⟨i, by simp, m, hm, rfl, rfl⟩
  | more i l m p c hm hp hc ih =>
    obtain ⟨e1, e2⟩ := merge_ok hc
    rcases merge_fileName hc with e | e
    · exact ⟨i, by simp, m, hm, e, e2⟩
    · obtain ⟨j, hj, x, h1, h2, h3⟩ := ih
      exact ⟨j, by simp [hj], x, h1, e.trans h2, by rw [e2, e1, h3]⟩

/-- A module made of acceptable inputs. -/
theorem made_good {T : Threads.Env} (hh : ∀ l, IterOrder (T.hash l)) {k : Nat} (hk : k * T.files < M32)
    (hg : ∀ i m, T.parse i = .ok m → m.Good ∧ m.files.idToRef.length ≤ k ∧ m.inlineOrigins.length ≤ k)
    {l : List Nat} {m : ObjectInfo} (h : Threads.MadeOnce T l m) :
    m.Good ∧ m.files.idToRef.length ≤ k * l.length ∧ m.inlineOrigins.length ≤ k * l.length := by
  obtain ⟨hn, hb, h⟩ := h
  induction h with
  | one i m hm =>
    obtain ⟨h1, h2, h3⟩ := hg i m hm
    exact ⟨h1, by simpa using h2, by simpa using h3⟩
  | more i l m p c hm hp hc ih =>
    obtain ⟨a1, a2, a3⟩ := hg i m hm
    obtain ⟨b1, b2, b3⟩ := ih (List.nodup_cons.mp hn).2 fun f hf => hb f (by simp [hf])
    have hlen : (i :: l).length ≤ T.files := by
      have := List.Nodup.length_le_of_subset hn (l₂ := List.range T.files) (fun j hj => List.mem_range.mpr (hb j hj))
      simpa using this
    have hk' : k * (i :: l).length < M32 := Nat.lt_of_le_of_lt (Nat.mul_le_mul_left k hlen) hk
    rw [List.length_cons, Nat.mul_succ] at hk' ⊢
    obtain ⟨f1, f2⟩ := merge_ok hc
    obtain ⟨c', g1, g2, g3, g4, g5⟩ := merge_good (hh (i :: l)) a1 b1 f1 (by omega) (by omega)
    rw [hc] at g1; cases g1
    exact ⟨g2, by omega, by omega⟩

/-- **C90, the causes.** If a run on several files crashes, it is for one of the reasons of `SeveralCrash`. -/
theorem C90_causes_partial (env : Env) (hsha : ∀ d, ∀ b ∈ env.map.sha512 d, b < 256) (hord : ∀ l, (env.map.order l).Perm l)
    (version : Str) (cpus : Nat) (o : Options) (hla : o.listArch = false) (hlen : o.filenames.length ≠ 1)
    (hargs : o.mappingSrc ≠ some [] ∧ o.mappingDest ≠ some [])
    (w : Cache.World) (hsane : Sane env w.disk) (orders : Orders) (hres : ∀ t, (orders.results t).Perm t) (htab : ∀ l, IterOrder (orders.tables l))
    (out : Output.World) (config : Config) (hcfg : Configures cpus o config) (k : Nat)
    (hmerge : ∀ mapping arch, Mapping.new env.map o.mappingVar o.mappingSrc o.mappingDest o.mappingFile = .ok mapping →
      env.parsers.arch o.arch = some arch → Mergeable env o w mapping arch k)
    (out' : Output.World) (h : Exits env version cpus o w orders out 101 out') : SeveralCrash env o config w := by
  obtain ⟨c, hact, hc⟩ := (C64_config cpus o).2 hla
  obtain ⟨m1, m2, m3, m4⟩ := hc.mapping
  obtain ⟨k1, k2, k3, k4⟩ := hcfg.mapping
  obtain ⟨n1, n2⟩ := hc.reading
  by_cases hinfo : ∀ v ∈ o.extraInfo.getD [], Main.InfoLine v
  swap
  · obtain ⟨v, h1, h2⟩ : ∃ v ∈ o.extraInfo.getD [], ¬ Main.InfoLine v := by simpa only [Classical.not_forall, exists_prop] using hinfo
    exact .info v h1 h2
  have hextra := extra_ok (version := version) hinfo
  generalize hcode : (101 : Nat) = code at h
  cases h with
  | badInfo h => exact absurd hextra (h _)
  | acts extra r out' h ha =>
    rw [hextra] at h; cases h
    rw [hact] at ha
    cases ha with
    | single config g hg => rw [hg] at hlen; exact absurd rfl hlen
    | several config' ws r out' hlen' hw hs =>
      cases hs with
      | badOptions m h => cases hcode
      | returned => cases hcode
      | badMapping h =>
        refine .mapping ?_
        rw [prepare_panic, m1, m2, m3, m4, Mapping.new_crash_iff _ _ _ _ _ hargs.1 hargs.2, ← k1, ← k4] at h
        exact h
      | crashed mapping arch m hp hr hs =>
        obtain ⟨hp1, hp2⟩ := prepare_ok.mp hp
        rw [m1, m2, m3, m4] at hp1
        rw [n1] at hp2
        obtain ⟨hnames, hpes, hdumps, hbelow⟩ := hmerge mapping arch hp1 hp2
        obtain ⟨rules, x1, x2⟩ := C79_rules env hsha hord _ _ _ _ mapping hp1
        have guards := dump_guards (rules := rules) (fun platform obj p => (x2 platform obj p).1)
        have hfile : ∀ {i : Nat} {f : Str}, o.filenames[i]? = some f →
            (threads env (some (Infos version o)) c o.filenames ws orders mapping arch out).parse i = (parseInput env c mapping arch f (ws i)).1 := by
          intro i f hi
          simp only [threads, hi]
        have hok : ∀ {i : Nat} {x : ObjectInfo},
            (threads env (some (Infos version o)) c o.filenames ws orders mapping arch out).parse i = .ok x →
            ∃ path ∈ o.filenames, ∃ filename b obj name pe peName platform opts w'', PathHolds env.net.cab (ws i).disk path b ∧
              DumpedFrom env b path filename arch none (ws i) obj name pe peName platform opts w'' ∧
              Dumper.fromObject env obj name pe peName platform (if opts then mapping else none) (o.inlines && opts) = .ok x := by
          intro i x hx
          cases hi : o.filenames[i]? with
          | none => simp only [threads, hi] at hx; cases hx
          | some f =>
            have hf := List.mem_of_getElem? hi
            rw [hfile hi] at hx
            obtain ⟨pre, filename, rfl, hdir, hname⟩ := hnames f hf
            rw [parse_eq hdir hname] at hx
            have hs1 := (hw i).sane hsane
            cases hrd : Files.readFile env.net.cab (ws i).disk (pre ++ filename) with
            | err m => rw [hrd] at hx; cases hx
            | panic => rw [hrd] at hx; cases hx
            | ok b =>
              rw [hrd] at hx
              simp only at hx
              have hh := ((C77_read env.net.cab (ws i).disk pre filename hdir hname hs1.dirs).1 b).mp hrd
              generalize hgo : getObjectInfo env b (pre ++ filename) filename mapping arch none c.emitInlines (ws i) = y at hx
              obtain ⟨y, w2⟩ := y
              cases hx
              obtain ⟨obj, name, pe, peName, platform, opts, hd, hx⟩ := C81_sound env arch none hdir hname hs1 (hpes _ hf _ (hw i) b hh) mapping c.emitInlines hgo
              rw [n2] at hx
              exact ⟨_, hf, filename, b, obj, name, pe, peName, platform, opts, w2, hh, hd, hx⟩
        have hgood : ∀ i x, (threads env (some (Infos version o)) c o.filenames ws orders mapping arch out).parse i = .ok x →
            x.Good ∧ x.files.idToRef.length ≤ k ∧ x.inlineOrigins.length ≤ k := by
          intro i x hx
          obtain ⟨path, hf, filename, b, obj, name, pe, peName, platform, opts, w'', h1, h2, h3⟩ := hok hx
          obtain ⟨d1, d2, d3⟩ := hdumps path hf _ (hw i) b h1 _ _ _ _ _ _ _ _ h2 x h3
          exact ⟨d1.good, by simpa [SourceMap.getMapping] using d2, d3⟩
        cases Threads.C90_threads (threads env (some (Infos version o)) c o.filenames ws orders mapping arch out) (by exact hres) m.s (Threads.moments_reach hr) (.inr (.inr hs)) with
        | parse i hi hpan =>
          have hi : i < o.filenames.length := hi
          have hf := List.getElem_mem hi
          rw [hfile (List.getElem?_eq_getElem hi)] at hpan
          generalize o.filenames[i] = f at hf hpan
          obtain ⟨pre, filename, rfl, hdir, hname⟩ := hnames f hf
          have hs1 := (hw i).sane hsane
          rw [parse_eq hdir hname] at hpan
          cases hrd : Files.readFile env.net.cab (ws i).disk (pre ++ filename) with
          | err m => rw [hrd] at hpan; cases hpan
          | panic => exact .read _ _ hf (hw i) ((cannotRead_iff (fun _ _ _ => ⟨pre, filename, rfl, hdir, hname⟩) hs1.dirs).mp hrd)
          | ok b =>
            rw [hrd] at hpan
            simp only at hpan
            have hh := ((C77_read env.net.cab (ws i).disk pre filename hdir hname hs1.dirs).1 b).mp hrd
            rcases input_crash_of hdir hname hs1 (hpes _ hf _ (hw i) b hh) hpan with hx | ⟨obj, name, pe, peName, platform, opts, w', hd, hx⟩
            · exact .input _ _ b hf (hw i) hh hx
            · exact .object _ filename _ b rules arch obj name pe peName platform opts w' hf (hw i) hh x1 hp2 hd
                ((guards obj name pe peName platform opts _).panics hx)
        | merge i l x p hn hb hx hp hid hpan =>
          exfalso
          have hk : k * (i :: l).length < M32 := by
            have : (i :: l).length ≤ o.filenames.length := by
              have := List.Nodup.length_le_of_subset hn (l₂ := List.range o.filenames.length) (fun j hj => List.mem_range.mpr (hb j hj))
              simpa using this
            exact Nat.lt_of_le_of_lt (Nat.mul_le_mul_left k this) hbelow
          rw [List.length_cons, Nat.mul_succ] at hk
          obtain ⟨a1, a2, a3⟩ := hgood i x hx
          obtain ⟨b1, b2, b3⟩ := made_good (T := threads env (some (Infos version o)) c o.filenames ws orders mapping arch out) htab hbelow hgood
            ⟨(List.nodup_cons.mp hn).2, fun g hg => hb g (by simp [hg]), hp⟩
          obtain ⟨c', g1, _⟩ := merge_good (htab (i :: l)) a1 b1 hid (by omega) (by omega)
          have hpan : ObjectInfo.merge (orders.tables (i :: l)) x p = .panic := hpan
          rw [g1] at hpan; cases hpan
        | store l x hm hpan =>
          obtain ⟨g, _, _⟩ := made_good (T := threads env (some (Infos version o)) c o.filenames ws orders mapping arch out) htab hbelow hgood hm
          obtain ⟨text, ht⟩ := display_of_inlined (o := x) (fun e he => (g.inlines _ _ (SMap.get?_of_mem g.sorted he)).2) (some (Infos version o))
          obtain ⟨p, hreq, hcr⟩ := Output.store_crash (made_no_slash hm.2.2) ht hpan
          have hdest := (hc.destinations x (.path p)).mp hreq
          obtain ⟨i, _, y, y1, y2, y3⟩ := made_name hm.2.2
          obtain ⟨path, hf, filename, b, obj, name, pe, peName, platform, opts, w'', h1, h2, h3⟩ := hok y1
          obtain ⟨f1, f2, f3, _⟩ := fromObject_header h3
          rw [y2, y3, f3] at hdest
          exact .create path filename _ b arch obj name pe peName platform opts w'' y.fileName p hf (hw i) h1 hp2 h2
            (by rw [f1]; exact ⟨fileNameOnly_no_slash _, fileNameOnly_suffix _⟩) hdest hcr

/-- If no writing is ever started, nothing is written. -/
theorem quiet {T : Threads.Env} {calls : ObjectInfo → List Output.Todo} {out : Output.World} (hq : ∀ s, Threads.Reachable T s → ¬ s.Started)
    {m : Threads.Moment} (h : Threads.Moments T calls out m) : m.out = out ∧ ∀ i, m.todo i = [] := by
  induction h with
  | init => exact ⟨rfl, fun _ => rfl⟩
  | @step m m' a hm ha ih =>
    have hno : ∀ s, Threads.Reachable T s → ∀ i, s.todo calls i = [] := by
      intro s hs i
      unfold Threads.State.todo
      split
      · rename_i d hd
        exfalso
        obtain ⟨x, h1, h2⟩ := Threads.job_ws hd
        refine hq s hs (.inr (.inr (.inl ⟨d, x, List.mem_of_getElem? h1, ?_⟩)))
        cases x <;> simp [Threads.W.job] at h2 <;> exact h2
      · rfl
    cases a with
    | call i k =>
      simp only [Threads.Turn.go, ih.2 i] at ha
      split at ha <;> cases ha
    | move a =>
      cases a with
      | worker i =>
        simp only [Threads.Turn.go, ih.2 i, if_true] at ha
        cases hact : Threads.act T (.worker i) m.s with
        | none => rw [hact] at ha; cases ha
        | some s =>
          rw [hact] at ha; cases ha
          refine ⟨ih.1, fun j => ?_⟩
          simp only
          split
          · exact hno s (.step _ (Threads.moments_reach hm) hact) i
          · exact ih.2 j
      | send =>
        simp only [Threads.Turn.go] at ha
        cases hact : Threads.act T .send m.s with
        | none => rw [hact] at ha; cases ha
        | some s => rw [hact] at ha; cases ha; exact ih
      | join =>
        simp only [Threads.Turn.go] at ha
        cases hact : Threads.act T .join m.s with
        | none => rw [hact] at ha; cases ha
        | some s => rw [hact] at ha; cases ha; exact ih

/-- An input that crashes whatever the other workers do: it cannot be read, or it cannot be found out what to dump. -/
def InputSure (env : Env) (w : Cache.World) (path : Str) : Prop :=
  ∀ w', Meanwhile env w w' → CannotRead env.net.cab w'.disk path ∨
    ∃ b, PathHolds env.net.cab w'.disk path b ∧ SanePe env b ∧ InputCrash env b path none w'

/-- A run on several files does not come to a good end: an extra INFO line is malformed, the mapping file cannot be read, or an input crashes, the others being as
they should be or crashing as well. -/
inductive SeveralSure (env : Env) (version : Str) (o : Options) (config : Config) (w : Cache.World) : Prop
  | info (v : Str) : v ∈ o.extraInfo.getD [] → ¬ Main.InfoLine v → SeveralSure env version o config w
  | mapping : MappingCrash env config → SeveralSure env version o config w
  | input (mapping : Option (List Mapping.Generator)) (arch pre filename : Str) : Mapping.new env.map o.mappingVar o.mappingSrc o.mappingDest o.mappingFile = .ok mapping →
      env.parsers.arch o.arch = some arch → pre ++ filename ∈ o.filenames → DirPart pre → ProperComp filename → InputSure env w (pre ++ filename) →
      (∀ f ∈ o.filenames, ∃ pre filename, f = pre ++ filename ∧ DirPart pre ∧ ProperComp filename ∧ (InputSure env w f ∨
        ∃ x : Input, x.pre = pre ∧ x.filename = filename ∧ ∀ w', Meanwhile env w w' → x.Ok env mapping arch w' (Infos version o))) →
      SeveralSure env version o config w

theorem parse_sure {env : Env} {w : Cache.World} {pre filename : Str} (hdir : DirPart pre) (hname : ProperComp filename) (hsane : Sane env w.disk)
    (h : InputSure env w (pre ++ filename)) {w' : Cache.World} (hw : Meanwhile env w w') (config : Config) (mapping : Option (List Mapping.Generator)) (arch : Str) :
    (parseInput env config mapping arch (pre ++ filename) w').1 = .panic := by
  have hs1 := hw.sane hsane
  rw [parse_eq hdir hname]
  rcases h w' hw with h | ⟨b, h1, h2, h3⟩
  · rw [(cannotRead_iff (fun _ _ _ => ⟨pre, filename, rfl, hdir, hname⟩) hs1.dirs).mpr h]
  · rw [((C77_read env.net.cab w'.disk pre filename hdir hname hs1.dirs).1 b).mpr h1]
    exact input_crash hdir hname hs1 h2 h3 _ _ _

/-- **C90, sure.** For these reasons a run on several files never ends with status 0 or 1: if it ends, it crashes, with nothing written.  (If the
reason is an input, it may also hang, `C90_crash_or_hang`.) -/
theorem C90_sure (env : Env) (version : Str) (cpus : Nat) (o : Options) (hla : o.listArch = false) (hlen : o.filenames.length ≠ 1)
    (hargs : o.mappingSrc ≠ some [] ∧ o.mappingDest ≠ some [])
    (w : Cache.World) (hsane : Sane env w.disk) (orders : Orders) (hres : ∀ t, (orders.results t).Perm t)
    (out : Output.World) (config : Config) (hcfg : Configures cpus o config)
    (h : SeveralSure env version o config w) (code : Nat) (out' : Output.World) (hex : Exits env version cpus o w orders out code out') :
    code = 101 ∧ out' = out := by
  obtain ⟨c, hact, hc⟩ := (C64_config cpus o).2 hla
  obtain ⟨m1, m2, m3, m4⟩ := hc.mapping
  obtain ⟨k1, k2, k3, k4⟩ := hcfg.mapping
  obtain ⟨n1, n2⟩ := hc.reading
  cases hex with
  | badInfo h => exact ⟨rfl, rfl⟩
  | acts extra r out' hextra ha =>
    rw [hact] at ha
    cases ha with
    | single config g hg => rw [hg] at hlen; exact absurd rfl hlen
    | several config' ws r out' hlen' hw hs =>
      cases h with
      | info v h1 h2 =>
        rw [(Main.C55_rejected version o.extraInfo o.noGenerator).mpr ⟨v, h1, h2⟩] at hextra; cases hextra
      | mapping h =>
        have : prepare env c = .panic := by
          rw [prepare_panic, m1, m2, m3, m4, Mapping.new_crash_iff _ _ _ _ _ hargs.1 hargs.2, ← k1, ← k4]
          exact h
        cases hs with
        | badOptions m h => rw [this] at h; cases h
        | returned _ _ _ h => rw [this] at h; cases h
        | badMapping h => exact ⟨rfl, rfl⟩
        | crashed _ _ _ h => rw [this] at h; cases h
      | input mapping arch pre filename hp1 hp2 hmem hdir hname hsure hall =>
        have hprep : prepare env c = .ok (mapping, arch) := prepare_ok.mpr ⟨by rw [m1, m2, m3, m4]; exact hp1, by rw [n1]; exact hp2⟩
        obtain ⟨i, hi, hi'⟩ := List.mem_iff_getElem.mp hmem
        have hi2 : o.filenames[i]? = some (pre ++ filename) := by rw [List.getElem?_eq_getElem hi, hi']
        have hpan : (threads env (some extra) c o.filenames ws orders mapping arch out).parse i = .panic := by
          simp only [threads, hi2]
          exact parse_sure hdir hname hsane hsure (hw i) _ _ _
        have herr : ∀ g, g < (threads env (some extra) c o.filenames ws orders mapping arch out).files →
            ∀ m, (threads env (some extra) c o.filenames ws orders mapping arch out).parse g ≠ .err m := by
          intro g hg m h
          have hg : g < o.filenames.length := hg
          have hgm := List.getElem_mem hg
          simp only [threads, List.getElem?_eq_getElem hg] at h
          generalize o.filenames[g] = f at hgm h
          obtain ⟨pre', filename', rfl, hdir', hname', hx⟩ := hall f hgm
          rcases hx with hx | ⟨x, rfl, rfl, hx⟩
          · rw [parse_sure hdir' hname' hsane hx (hw g)] at h; cases h
          · obtain ⟨mem, U, V, hok⟩ := (hx _ (hw g)).ok
            obtain ⟨m', _, _, _, a1, _⟩ := fromObject_spec hok (c.emitInlines && x.opts) x.name x.pe x.peName
            rw [(hx _ (hw g)).parse ((hw g).sane hsane)] at h
            rw [show ObjectInfo.fromObject (x.cenv env mapping) (c.emitInlines && x.opts) x.platform x.obj x.name x.pe x.peName = .ok m' from a1] at h
            cases h
        have hno := Threads.C90_no_return (threads env (some extra) c o.filenames ws orders mapping arch out) (by exact hres) hlen i hi hpan herr
        have hquiet : ∀ s, Threads.Reachable (threads env (some extra) c o.filenames ws orders mapping arch out) s → ¬ s.Started := by
          intro s hr hs
          obtain ⟨_, _, _, _, x, h1, _⟩ := Threads.C48_all_merged_first _ (by exact hres) s hr hs i hi
          rw [hpan] at h1; cases h1
        cases hs with
        | badOptions m h => rw [hprep] at h; cases h
        | badMapping h => rw [hprep] at h; cases h
        | returned mapping' arch' m h hr hs =>
          rw [hprep] at h; cases h
          exact absurd hs (hno m.s (Threads.moments_reach hr)).1
        | crashed mapping' arch' m h hr hs =>
          rw [hprep] at h; cases h
          exact ⟨rfl, (quiet hquiet hr).1⟩

/-! ## Witnesses -/

/-- The second of these files is not there. -/
def goneOptions : Options := { exOptions [str% "/d/a", str% "/d/x"] with inlines := true }
def goneConfig : Config := match actionOf 4 goneOptions with | .dump c => c | _ => exConfig
def goneThreads : Threads.Env :=
  threads exEnv2 (some []) goneConfig [str% "/d/a", str% "/d/x"] (fun _ => exDisk3) exOrders none (str% "x86_64") Output.emptyWorld
def goneLast : Threads.Moment :=
  played goneThreads (Output.callsOf exEnv2.io (some []) goneConfig.output goneConfig.checkCfi) Output.emptyWorld
    (whole ([.send, .send] ++ Threads.steps 0 7 ++ [.join]))

/-- The same file twice. -/
def twiceOptions : Options := exOptions [str% "/d/a", str% "/d/a"]
def twiceConfig : Config := match actionOf 4 twiceOptions with | .dump c => c | _ => exConfig
def noCreate : Env := { exEnv2 with io := { Output.goodDisk with create := fun _ => false } }
def twiceThreads : Threads.Env :=
  threads noCreate (some []) twiceConfig [str% "/d/a", str% "/d/a"] (fun _ => exDisk3) exOrders none (str% "x86_64") Output.emptyWorld
def twiceLast : Threads.Moment :=
  played twiceThreads (Output.callsOf noCreate.io (some []) twiceConfig.output twiceConfig.checkCfi) Output.emptyWorld
    (whole ([.send, .send] ++ Threads.steps 0 11 ++ [.join]))

/-- **C90 is false**: a run on several files crashes if one of them is not there, if the mapping file cannot be opened, and if the output cannot be created. -/
theorem C90_witness :
    (∃ out', Exits exEnv2 (str% "1.0") 4 goneOptions exDisk3 exOrders Output.emptyWorld 101 out') ∧
    (∃ out', Exits shutEnv (str% "1.0") 4 { twiceOptions with mappingFile := some (str% "m.json") } exDisk3 exOrders Output.emptyWorld 101 out') ∧
    (∃ out', Exits noCreate (str% "1.0") 4 twiceOptions exDisk3 exOrders Output.emptyWorld 101 out') := by
  refine ⟨⟨goneLast.out, ?_⟩, ⟨Output.emptyWorld, ?_⟩, ⟨twiceLast.out, ?_⟩⟩
  · exact .acts [] .panic _ rfl (.several goneConfig (fun _ => exDisk3) .panic _ (by decide) (fun _ => .start)
      (.crashed none (str% "x86_64") goneLast rfl (played_moments (by decide +kernel)) (by decide +kernel)))
  · exact .acts [] .panic _ rfl (.several _ (fun _ => exDisk3) .panic _ (by decide) (fun _ => .start) (.badMapping rfl))
  · exact .acts [] .panic _ rfl (.several twiceConfig (fun _ => exDisk3) .panic _ (by decide) (fun _ => .start)
      (.crashed none (str% "x86_64") twiceLast rfl (played_moments (by decide +kernel)) (by decide +kernel)))

theorem goneInput (w' : Cache.World) (hw : Meanwhile exEnv2 exDisk3 w') : CannotRead exEnv2.net.cab w'.disk (str% "/d/x") := by
  rintro b ⟨p, q, n, raw, h1, _⟩
  rw [hw.same_disk exNoServer] at h1
  cases h1 with
  | file _ h => cases h
  | bundle es e _ h => cases h

/-- C90 applied to the missing file: the run does not end well. -/
example (code : Nat) (out' : Output.World) (h : Exits exEnv2 (str% "1.0") 4 goneOptions exDisk3 exOrders Output.emptyWorld code out') :
    code = 101 ∧ out' = Output.emptyWorld := by
  obtain ⟨c, _, hc⟩ := (C64_config 4 goneOptions).2 rfl
  refine C90_sure exEnv2 (str% "1.0") 4 goneOptions rfl (by decide) ⟨(fun h => by cases h), fun h => by cases h⟩ exDisk3 exSeveral.sane exOrders
    (fun t => .refl _) Output.emptyWorld c hc ?_ code out' h
  refine .input none (str% "x86_64") (str% "/d/") (str% "x") rfl rfl (by decide) (.inr rfl) (by unfold ProperComp; decide)
    (fun w' hw => .inl (goneInput w' hw)) ?_
  intro f hf
  simp only [goneOptions, exOptions, List.mem_cons, List.not_mem_nil, or_false] at hf
  rcases hf with rfl | rfl
  · exact ⟨str% "/d/", str% "a", rfl, .inr rfl, by unfold ProperComp; decide, .inr ⟨in0, rfl, rfl, fun w' hw => exInputs_each hw (by simp [exInputs])⟩⟩
  · exact ⟨str% "/d/", str% "x", rfl, .inr rfl, by unfold ProperComp; decide, .inl fun w' hw => .inl (goneInput w' hw)⟩

theorem goneMergeable : Mergeable exEnv2 goneOptions exDisk3 none (str% "x86_64") 2 where
  names := by
    intro f hf
    simp only [goneOptions, exOptions, List.mem_cons, List.not_mem_nil, or_false] at hf
    rcases hf with rfl | rfl
    · exact ⟨str% "/d/", str% "a", rfl, .inr rfl, by unfold ProperComp; decide⟩
    · exact ⟨str% "/d/", str% "x", rfl, .inr rfl, by unfold ProperComp; decide⟩
  pes := by
    intro f hf w' hw b hb
    simp only [goneOptions, exOptions, List.mem_cons, List.not_mem_nil, or_false] at hf
    rcases hf with rfl | rfl
    · have := ((C77_read exEnv2.net.cab w'.disk (str% "/d/") (str% "a") (.inr rfl) (by unfold ProperComp; decide) (hw.sane exSeveral.sane).dirs).1 b).mpr hb
      rw [hw.same_disk exNoServer] at this
      have hr : Files.readFile exEnv2.net.cab exDisk3.disk (str% "/d/" ++ str% "a") = .ok [1] := by decide +kernel
      rw [hr] at this; cases this
      intro _ _ h; cases h
    · exact absurd hb (goneInput w' hw b)
  dumps := by
    intro f hf w' hw b hb filename obj name pe peName platform opts w'' hd m hm
    simp only [goneOptions, exOptions, List.mem_cons, List.not_mem_nil, or_false] at hf
    rcases hf with rfl | rfl
    · have := ((C77_read exEnv2.net.cab w'.disk (str% "/d/") (str% "a") (.inr rfl) (by unfold ProperComp; decide) (hw.sane exSeveral.sane).dirs).1 b).mpr hb
      rw [hw.same_disk exNoServer] at this
      have hr : Files.readFile exEnv2.net.cab exDisk3.disk (str% "/d/" ++ str% "a") = .ok [1] := by decide +kernel
      rw [hr] at this; cases this
      cases hd with
      | elf hk h =>
        cases h
        have hok := exInputs_ok (x := in0) (by simp [exInputs])
        refine ⟨⟨_, _, _, _, _, _, _, _, _, _, _, _, hok, rfl, hm⟩, ?_⟩
        cases hm
        exact ⟨Nat.le_of_ble_eq_true rfl, Nat.le_of_ble_eq_true rfl⟩
      | machoOnly o hk => cases hk
      | machoOf o _ _ hk => cases hk
      | pdb o hk => cases hk
      | pdbPe o _ _ _ _ hk => cases hk
      | pePdb _ _ _ _ _ _ _ _ hk => cases hk
      | pe _ _ _ _ _ _ hk => cases hk
    · exact absurd hb (goneInput w' hw b)
  below := by decide

/-- The crash of the first witness has one of the causes. -/
example : ∃ c, Configures 4 goneOptions c ∧ SeveralCrash exEnv2 goneOptions c exDisk3 := by
  obtain ⟨c, _, hc⟩ := (C64_config 4 goneOptions).2 rfl
  obtain ⟨out', h⟩ := C90_witness.1
  refine ⟨c, hc, C90_causes_partial exEnv2 exSeveral.sha exSeveral.order (str% "1.0") 4 goneOptions rfl (by decide) ⟨(fun h => by cases h), fun h => by cases h⟩ exDisk3
    exSeveral.sane exOrders (fun t => .refl _) (fun l t => .refl _) Output.emptyWorld c hc 2 ?_ out' h⟩
  intro mapping arch h1 h2
  cases h1; cases h2
  exact goneMergeable

end Run
end DumpSyms
