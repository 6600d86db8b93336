import Verif.Props.WinProcess
import Verif.Props.SeveralEnds
/-!
# C122: several files, from the command line to the frames, on Windows

As C85, with the paths of Windows.
-/
namespace DumpSyms
namespace WinHost
open WinPath
open Dumper (Env Config prepare)
open Run (Orders Options Action actionOf exitStatus Infos Input Possible Sound Works dump_sound two_answers extra_ok prints_mapped startsAt_of_record)
open Output (FileOutput Out IoEnv)
open ObjectInfo Collector Reader

/-- The input is there (C107, C112; several files are looked for without a symbol server), its debug information can be read, its texts are on one line, and
its name and debug id are names Windows allows. -/
structure InputOk (x : Input) (env : Env) (mapping : Option (List Mapping.Generator)) (arch : Str) (w : Cache.World) (infos : List Str) : Prop where
  dir : WinDirPart x.pre
  filename : WinProper x.filename
  holds : PathHolds env.net.cab w.disk (x.pre ++ x.filename) x.buf
  sane : SanePe env x.buf
  caches : SaneCaches env none w.disk
  dumped : ∃ after, DumpedFrom env x.buf x.pre x.filename arch none w x.obj x.name x.pe x.peName x.platform x.opts after
  clear : x.Clear env mapping infos
  last : ∀ last, AfterLast '/' (x.source env mapping [] true).givenName last → WinProper last
  id : WinProper x.obj.debugId

theorem InputOk.parse {env : Env} {mapping : Option (List Mapping.Generator)} {arch : Str} {w : Cache.World} {infos : List Str} {x : Input}
    (h : InputOk x env mapping arch w infos) (hsane : Sane env w.disk) (config : Config) :
    (parseInput env config mapping arch (x.pre ++ x.filename) w).1 =
      ObjectInfo.fromObject (x.cenv env mapping) (config.emitInlines && x.opts) x.platform x.obj x.name x.pe x.peName := by
  unfold parseInput
  have h1 : getFilename (x.pre ++ x.filename) = .ok x.filename := by
    unfold getFilename
    rw [fileName_dir h.dir h.filename]
  have h2 : readFile env.net.cab w.disk (x.pre ++ x.filename) = .ok x.buf :=
    ((readFile_dir env.net.cab w.disk h.dir h.filename hsane.dirs).1 _).mpr h.holds
  obtain ⟨after, hdumped⟩ := h.dumped
  rw [h1, h2]
  simp only
  rw [C112_complete env arch none h.dir h.filename hsane h.sane h.caches hdumped mapping config.emitInlines]
  rfl

theorem InputOk.name {env : Env} {mapping : Option (List Mapping.Generator)} {arch : Str} {w : Cache.World} {infos : List Str} {x : Input}
    (h : InputOk x env mapping arch w infos) {inlines : Bool} {m : ObjectInfo} (hm : x.Dumps env mapping inlines m) :
    WinProper m.fileName ∧ WinProper m.debugId := by
  refine ⟨h.last _ (sourceOf_last (fs := x.fs) (ps := []) hm), ?_⟩
  rw [(fromObject_header hm).2.2.1]
  exact h.id

/-- A merged module has a name Windows allows if its inputs have. -/
theorem possible_names {env : Env} {mapping : Option (List Mapping.Generator)} {inlines : Bool}
    {tables : List Nat → List (Str × Nat) → List (Str × Nat)} {inputs : List Input} (hx : ∀ x ∈ inputs, ∀ m, x.Dumps env mapping inlines m →
      WinProper m.fileName ∧ WinProper m.debugId) {l : List Nat} {m : ObjectInfo} (h : Possible env mapping inlines tables inputs l m) :
    WinProper m.fileName ∧ WinProper m.debugId := by
  induction h with
  | one i x m hi hm => exact hx x (List.mem_of_getElem? hi) m hm
  | more i l x m p c hi hm hl hp hc ih =>
    have hm := hx x (List.mem_of_getElem? hi) m hm
    refine ⟨?_, ?_⟩
    · rcases Run.merge_fileName hc with e | e
      · rw [e]; exact hm.1
      · rw [e]; exact ih.1
    · rw [(merge_ok hc).2]; exact hm.2

theorem possible_of_made {env : Env} {mapping : Option (List Mapping.Generator)} {arch : Str} {ws : Nat → Cache.World} {infos : List Str}
    {inputs : List Input} (hx : ∀ i, ∀ x ∈ inputs, InputOk x env mapping arch (ws i) infos) (hsane : ∀ i, Sane env (ws i).disk) {config : Config} {orders : Orders}
    {out : Output.World} {l : List Nat} {m : ObjectInfo} (hn : l.Nodup)
    (h : Threads.Made (threads env (some infos) config (inputs.map fun x => x.pre ++ x.filename) ws orders mapping arch out) l m) :
    Possible env mapping config.emitInlines orders.tables inputs l m := by
  have hone : ∀ i m, (threads env (some infos) config (inputs.map fun x => x.pre ++ x.filename) ws orders mapping arch out).parse i = .ok m →
      ∃ x, inputs[i]? = some x ∧ x.Dumps env mapping config.emitInlines m := by
    intro i m h
    simp only [threads, List.getElem?_map] at h
    cases hi : inputs[i]? with
    | none => rw [hi] at h; cases h
    | some x =>
      rw [hi] at h
      simp only [Option.map_some] at h
      rw [(hx i x (List.mem_of_getElem? hi)).parse (hsane i)] at h
      exact ⟨x, rfl, h⟩
  induction h with
  | one i m hm =>
    obtain ⟨x, h1, h2⟩ := hone i m hm
    exact .one i x m h1 h2
  | more i l m p c hm hp hc ih =>
    obtain ⟨x, h1, h2⟩ := hone i m hm
    obtain ⟨n1, n2⟩ := List.nodup_cons.mp hn
    exact .more i l x m p c h1 h2 n1 (ih n2) hc

/-- What is required of a run over several files.  Every input is there and can be read (`InputOk`), also when other
workers have put something into the caches of the symbol servers; the tables of the merged modules stay below
2^32 entries, unwind information is there if `--check-cfi` asks for it, the store is not verbatim, and the disk takes whatever can be made of the inputs. -/
structure Workable (env : Env) (version : Str) (o : Options) (inputs : List Input) (w : Cache.World) (orders : Orders)
    (mapping : Option (List Mapping.Generator)) (arch : Str) (k : Nat) : Prop where
  sha : ∀ d, ∀ b ∈ env.map.sha512 d, b < 256
  order : ∀ l, (env.map.order l).Perm l
  noList : o.listArch = false
  files : o.filenames = inputs.map fun x => x.pre ++ x.filename
  notOne : inputs.length ≠ 1
  info : ∀ v ∈ o.extraInfo.getD [], Main.InfoLine v
  lines : ∀ l ∈ Infos version o, OneLine l
  sane : Sane env w.disk
  plain : ∀ d, o.store = some d → d ≠ [] → PlainDir d
  results : ∀ t, (orders.results t).Perm t
  hashes : ∀ l, IterOrder (orders.tables l)
  rules : Mapping.new env.map o.mappingVar o.mappingSrc o.mappingDest o.mappingFile = .ok mapping
  knownArch : env.parsers.arch o.arch = some arch
  each : ∀ w', Meanwhile env w w' → ∀ x ∈ inputs, InputOk x env mapping arch w' (Infos version o)
  size : ∀ x ∈ inputs, ∀ m, x.Dumps env mapping o.inlines m → m.files.getMapping.length ≤ k ∧ m.inlineOrigins.length ≤ k
  below : k * inputs.length < M32
  cfi : o.checkCfi = true → ∀ x ∈ inputs, x.unwind ≠ []
  parts : ∀ t, (env.io.chunks t).flatten = Utf8.encode t
  mkdirs : ∀ d, env.io.mkdirs d = true
  create : ∀ p, env.io.create p = true
  room : ∀ l m t, Possible env mapping o.inlines orders.tables inputs l m → m.display (some (Infos version o)) = .ok t →
    ∀ fo, (Utf8.encode t).length ≤ env.io.room fo

/-- What is required of a run over several files with a store: the output file (if there is one) is not a place of the store. -/
structure Several (env : Env) (version : Str) (o : Options) (inputs : List Input) (w : Cache.World) (orders : Orders)
    (mapping : Option (List Mapping.Generator)) (arch : Str) (k : Nat) (dir : Str) : Prop
    extends Workable env version o inputs w orders mapping arch k where
  store : o.store = some dir
  named : dir ≠ []
  output : ∀ f, o.output = some f → f ≠ ['-'] → ∀ name id, ¬ InStore dir name id f

/-- How a run over several files goes. -/
structure Goes (env : Env) (version : Str) (cpus : Nat) (o : Options) (inputs : List Input) (w : Cache.World) (orders : Orders)
    (mapping : Option (List Mapping.Generator)) (arch : Str) (k : Nat) (out : Output.World) (c : Config) (rules : List Mapping.Rule) : Prop where
  config : Configures cpus o c
  action : actionOf cpus o = .dump c
  prep : prepare env c = .ok (mapping, arch)
  configured : Mapping.Configured env.map o.mappingVar o.mappingSrc o.mappingDest o.mappingFile rules
  maps : ∀ platform obj p, ((Dumper.cenv env platform mapping obj).src.mapPanics p = true ↔ Mapping.Unreadable env.map rules p) ∧
      (¬ Mapping.Unreadable env.map rules p → ∀ r, Mapping.MapsTo env.map rules p r ↔
        r = ((Dumper.cenv env platform mapping obj).src.mapping p).getD p)
  dump : ∀ x ∈ inputs, ∃ m text file, x.Dumps env mapping o.inlines m ∧ m.display (some (Infos version o)) = .ok text ∧
      readSymFile text = some file ∧ (x.source env mapping rules o.inlines).Describes (Infos version o) file
  reads : ∀ w', Meanwhile env w w' → ∀ x ∈ inputs, ∀ m, (parseInput env c mapping arch (x.pre ++ x.filename) w').1 = .ok m ↔ x.Dumps env mapping o.inlines m
  made : ∀ ws : Nat → Cache.World, (∀ i, Meanwhile env w (ws i)) → ∀ l m, Threads.MadeOnce (threads env (some (Infos version o)) c (inputs.map fun x => x.pre ++ x.filename) ws orders mapping arch out) l m →
      Possible env mapping o.inlines orders.tables inputs l m
  sound : ∀ {l m}, Possible env mapping o.inlines orders.tables inputs l m → Sound inputs (Infos version o) k l m
  works : ∀ ws : Nat → Cache.World, (∀ i, Meanwhile env w (ws i)) → Works env (some (Infos version o)) c (threads env (some (Infos version o)) c (inputs.map fun x => x.pre ++ x.filename) ws orders mapping arch out)
  parse : ∀ w', Meanwhile env w w' → ∀ f ∈ inputs.map (fun x => x.pre ++ x.filename), ∃ m, (parseInput env c mapping arch f w').1 = .ok m ∧ WinProper m.fileName ∧ WinProper m.debugId
  ends : ∀ code out', Exits env version cpus o w orders out code out' → code = 0 ∧ ∃ ws : Nat → Cache.World, (∀ i, Meanwhile env w (ws i)) ∧
      SeveralFiles env (some (Infos version o)) c (inputs.map fun x => x.pre ++ x.filename) ws orders out (.ok ()) out'
  smooth : ∀ ws : Nat → Cache.World, (∀ i, Meanwhile env w (ws i)) → (threads env (some (Infos version o)) c (inputs.map fun x => x.pre ++ x.filename) ws orders mapping arch out).Smooth
  plain : PlainStore c.output
  names : ∀ {l m}, Possible env mapping o.inlines orders.tables inputs l m → WinProper m.fileName ∧ WinProper m.debugId
  infos : Main.getExtraInfo version o.extraInfo o.noGenerator = .ok (Infos version o)

theorem Workable.goes {env : Env} {version : Str} {o : Options} {inputs : List Input} {w : Cache.World} {orders : Orders}
    {mapping : Option (List Mapping.Generator)} {arch : Str} {k : Nat} (hrun : Workable env version o inputs w orders mapping arch k)
    (cpus : Nat) (out : Output.World) : ∃ c rules, Goes env version cpus o inputs w orders mapping arch k out c rules := by
  obtain ⟨hsha, hord, hla, hfiles, hlen, hinfo, hlines, hsane, hplain, hres, htab, hmap, harch, hx, hsize, hk, hcfi, hparts, hmk, hcr, hroom⟩ := hrun
  obtain ⟨c, hact, hc⟩ := (C115_config cpus o).2 hla
  have hin : c.emitInlines = o.inlines := hc.reading.2
  have hprep : prepare env c = .ok (mapping, arch) := by
    unfold prepare
    rw [hc.mapping.1, hc.mapping.2.1, hc.mapping.2.2.1, hc.mapping.2.2.2, hmap, hc.reading.1, harch]
    rfl
  obtain ⟨rules, x1, x2⟩ := Dumper.C79_rules env hsha hord _ _ _ _ mapping hmap
  have hdump : ∀ x ∈ inputs, ∃ m text file, x.Dumps env mapping o.inlines m ∧ m.display (some (Infos version o)) = .ok text ∧
      readSymFile text = some file ∧ (x.source env mapping rules o.inlines).Describes (Infos version o) file := by
    intro x hmem
    obtain ⟨mem, U, V, hok⟩ := (hx w .start x hmem).clear.ok
    obtain ⟨m, text, file, y1, y2, y3, y4⟩ := C84_described _ mem U V x.platform x.obj x.fs hok (o.inlines && x.opts) x.name x.pe x.peName
      (hx w .start x hmem).clear.plain (Infos version o) hlines (hx w .start x hmem).clear.code x.embedded (hx w .start x hmem).clear.embeds
    exact ⟨m, text, file, y1, y2, y3, y4.prints (prints_mapped hok (x2 x.platform x.obj))⟩
  have hmade : ∀ ws : Nat → Cache.World, (∀ i, Meanwhile env w (ws i)) → ∀ l m, Threads.MadeOnce (threads env (some (Infos version o)) c (inputs.map fun x => x.pre ++ x.filename) ws orders mapping arch out) l m →
      Possible env mapping o.inlines orders.tables inputs l m := by
    intro ws hw l m h
    rw [← hin]
    exact possible_of_made (fun i => hx (ws i) (hw i)) (fun i => (hw i).sane hsane) h.1 h.2.2
  have hsound : ∀ {l m}, Possible env mapping o.inlines orders.tables inputs l m → Sound inputs (Infos version o) k l m :=
    fun h => h.sound htab (fun x hm => (hx w .start x hm).clear) hlines hsize hk
  have hworks : ∀ ws : Nat → Cache.World, (∀ i, Meanwhile env w (ws i)) → Works env (some (Infos version o)) c (threads env (some (Infos version o)) c (inputs.map fun x => x.pre ++ x.filename) ws orders mapping arch out) := by
    intro ws hw
    refine ⟨hmk, hcr, hparts, ?_, ?_⟩
    · intro l m h
      have hs := hsound (hmade ws hw l m h)
      obtain ⟨t, file, a1, _⟩ := read_display (extra := some (Infos version o)) hs.readable (fun e he => (hs.good.inlines _ _ (SMap.get?_of_mem hs.good.sorted he)).2)
      exact ⟨t, a1, hroom l m t (hmade ws hw l m h) a1⟩
    · intro h l m hm
      rw [hc.checkCfi] at h
      exact (hsound (hmade ws hw l m hm)).stack (hcfi h)
  have houtput : c.output = Output.Out.ofOptions o.output o.store := by
    simp only [actionOf, hla, Bool.false_eq_true, if_false, Action.dump.injEq] at hact
    rw [← hact]
  have hps : PlainStore c.output := by
    intro dir hd hne
    rw [houtput] at hd
    exact hplain dir (store_given hd) hne
  have hnames : ∀ {l m}, Possible env mapping o.inlines orders.tables inputs l m → WinProper m.fileName ∧ WinProper m.debugId :=
    fun h => possible_names (fun x hm m hd => (hx w .start x hm).name hd) h
  have hparse : ∀ w', Meanwhile env w w' → ∀ f ∈ inputs.map (fun x => x.pre ++ x.filename),
      ∃ m, (parseInput env c mapping arch f w').1 = .ok m ∧ WinProper m.fileName ∧ WinProper m.debugId := by
    intro w' hw f hf
    obtain ⟨x, hmem, rfl⟩ := List.mem_map.mp hf
    obtain ⟨m, _, _, h1, _⟩ := hdump x hmem
    refine ⟨m, by rw [(hx w' hw x hmem).parse (hw.sane hsane), hin]; exact h1, (hx w .start x hmem).name h1⟩
  have hsm : ∀ ws : Nat → Cache.World, (∀ i, Meanwhile env w (ws i)) → (threads env (some (Infos version o)) c (inputs.map fun x => x.pre ++ x.filename) ws orders mapping arch out).Smooth := by
    intro ws hw
    refine ⟨?_, ?_, ?_⟩
    · intro f hf
      simp only [threads, List.length_map] at hf
      obtain ⟨m, h1, _⟩ := hparse (ws f) (hw f) (inputs[f].pre ++ inputs[f].filename) (List.mem_map.mpr ⟨inputs[f], List.getElem_mem hf, rfl⟩)
      refine ⟨m, ?_⟩
      simp only [threads, List.getElem?_map, List.getElem?_eq_getElem hf, Option.map_some]
      exact h1
    · intro l m hm
      obtain ⟨t, ht, hr⟩ := (hworks ws hw).prints l m hm
      obtain ⟨w', h1, _⟩ := store_complete env.io (some (Infos version o)) c.output c.checkCfi m out hps (hnames (hmade ws hw l m hm)).1 (hnames (hmade ws hw l m hm)).2
        (fun hc => (hworks ws hw).cfi hc _ _ hm) ht (hparts t) hmk (fun p _ => hcr p) (fun fo _ => hr fo)
      simp only [threads, h1]
    · intro f l m p hn hb hm hp hid
      have hb' : ∀ g ∈ f :: l, g < inputs.length := by
        intro g hg; have := hb g hg; simpa [threads] using this
      have hlen : (f :: l).length ≤ inputs.length := by
        have := List.Nodup.length_le_of_subset hn (l₂ := List.range inputs.length) (fun j hj => List.mem_range.mpr (hb' j hj))
        simpa using this
      have hk' : k * (f :: l).length < M32 := Nat.lt_of_le_of_lt (Nat.mul_le_mul_left k hlen) hk
      rw [List.length_cons, Nat.mul_succ] at hk'
      have s1 := hsound (hmade ws hw [f] m ⟨by simp, by intro g hg; simp at hg; subst hg; exact hb g (by simp), .one f m hm⟩)
      have s2 := hsound (hmade ws hw l p ⟨(List.nodup_cons.mp hn).2, fun g hg => hb g (by simp [hg]), hp⟩)
      have := s1.files; have := s1.origins; have := s2.files; have := s2.origins
      simp only [List.length_cons, List.length_nil] at *
      obtain ⟨c', g1, _⟩ := merge_good (htab (f :: l)) s1.good s2.good hid (by omega) (by omega)
      exact ⟨c', g1⟩
  have hextra := extra_ok (version := version) hinfo
  refine ⟨c, rules, hc, hact, hprep, x1, x2, hdump, ?_, hmade, hsound, hworks, hparse, ?_, hsm, hps, hnames, hextra⟩
  · intro w' hw x hmem m
    rw [(hx w' hw x hmem).parse (hw.sane hsane), hin]
    rfl
  · intro code out' hex
    cases hex with
    | badInfo h => exact absurd hextra (h _)
    | acts extra r out' h ha =>
      rw [hextra] at h; cases h
      rw [hact, hfiles] at ha
      cases ha with
      | single config g hg => exact absurd (by have := congrArg List.length hg; simpa using this) hlen
      | several config ws r out' hlen' hw hs =>
        have hr : r = .ok () := by
          cases hs with
          | badOptions m h => rw [hprep] at h; cases h
          | badMapping h => rw [hprep] at h; cases h
          | returned => rfl
          | crashed mapping' arch' s h hr hs =>
            rw [hprep] at h; cases h
            rw [Threads.reach_not_crashed (by exact hres) (hsm ws hw) (Threads.moments_reach hr)] at hs
            cases hs
        subst hr
        exact ⟨rfl, ws, hw, hs⟩

theorem Goes.requested {env : Env} {version : Str} {cpus : Nat} {o : Options} {inputs : List Input} {w : Cache.World} {orders : Orders}
    {mapping : Option (List Mapping.Generator)} {arch : Str} {k : Nat} {out : Output.World} {c : Config} {rules : List Mapping.Rule}
    (g : Goes env version cpus o inputs w orders mapping arch k out c rules) (m : ObjectInfo) (fo : FileOutput) :
    Requested c.output m fo ↔ Destination o m.fileName m.debugId fo := by
  exact g.config.destinations m fo

/-- **C122.** The program run on several files with a store, from the options to the frames a user of the symbol files gets.  The program
ends with status 0 if it ends, and each input has its place in the store: it holds the text of a module made of exactly the inputs
with that debug id; the text can be read and has the debug id; and if no other input has it, the text describes the input.  (That the program
may not end is C51.) -/
theorem C122_several (env : Env) (version : Str) (cpus : Nat) (o : Options) (inputs : List Input) (w : Cache.World) (orders : Orders)
    (mapping : Option (List Mapping.Generator)) (arch : Str) (k : Nat) (dir : Str)
    (hrun : Several env version o inputs w orders mapping arch k dir) (out : Output.World) :
    ∃ rules, Mapping.Configured env.map o.mappingVar o.mappingSrc o.mappingDest o.mappingFile rules ∧
      ∀ code out', Exits env version cpus o w orders out code out' → code = 0 ∧
        ∀ (i : Nat) (x : Input), inputs[i]? = some x → ∃ l m text file p os cpu name, Possible env mapping o.inlines orders.tables inputs l m ∧
          (∀ j, j ∈ l ↔ ∃ y : Input, inputs[j]? = some y ∧ y.obj.debugId = x.obj.debugId) ∧
          m.display (some (Infos version o)) = .ok text ∧ readSymFile text = some file ∧
          file.modules = [(os, cpu, x.obj.debugId, name)] ∧ InStore dir name x.obj.debugId p ∧ out'.files p = some (Utf8.encode text) ∧
          ((∀ (j : Nat) (y : Input), inputs[j]? = some y → y.obj.debugId = x.obj.debugId → j = i) →
            (x.source env mapping rules o.inlines).Describes (Infos version o) file) := by
  obtain ⟨c, rules, g⟩ := hrun.goes cpus out
  have hx := hrun.each w .start
  have hlines := hrun.lines
  have hcout : c.output = .store dir ∨ ∃ fo, c.output = .fileAndStore fo dir ∧ ∀ name id p, InStore dir name id p → fo ≠ .path p := by
    have hceq : c.output = Output.Out.ofOptions o.output o.store := by
      have hact := g.action
      simp only [actionOf, hrun.noList, Bool.false_eq_true, if_false] at hact
      cases hact; rfl
    rw [hceq, hrun.store]
    cases ho : o.output with
    | none => exact .inl rfl
    | some f =>
      refine .inr ⟨Output.FileOutput.ofStr f, rfl, ?_⟩
      intro name id p hp
      unfold Output.FileOutput.ofStr
      by_cases hf : f = ['-']
      · simp [hf]
      · simp only [hf, if_false]
        intro h; cases h
        exact hrun.output _ ho hf _ _ hp
  refine ⟨rules, g.configured, ?_⟩
  intro code out' hex
  obtain ⟨hcode, ws, hws, hs⟩ := g.ends code out' hex
  refine ⟨hcode, ?_⟩
  intro i x hi
  have hmem := List.mem_of_getElem? hi
  obtain ⟨mi, ti, fi, d1, d2, d3, d4⟩ := g.dump x hmem
  have hid := (dump_sound (hx x hmem).clear hlines d1).2.2.1
  obtain ⟨l, m, t, p, m1, m2, m3, m4, m5, m6⟩ := C114_stored env (some (Infos version o)) c _ ws orders out out' mapping arch
    (by simpa using hrun.notOne) g.prep hrun.results g.plain (fun i f hf => g.parse _ (hws i) f (List.mem_of_getElem? hf)) (g.works ws hws) dir hrun.named (by
      rcases hcout with h | ⟨fo, h1, h2⟩
      · exact .inl h
      · exact .inr ⟨fo, h1, fun l m _ p hp => h2 _ _ p hp⟩) hs i (x.pre ++ x.filename) (by simp [hi]) mi
    ((g.reads _ (hws i) x hmem mi).mpr d1)
  have hp := g.made ws hws l m m1
  have hsd := g.sound hp
  obtain ⟨t', file, a1, a2, a3, _⟩ := read_display (extra := some (Infos version o)) hsd.readable (fun e he => (hsd.good.inlines _ _ (SMap.get?_of_mem hsd.good.sorted he)).2)
  rw [m4] at a1; cases a1
  refine ⟨l, m, t, file, p, _, _, _, hp, ?_, m4, a2, a3.trans (by rw [m3, hid]), by rw [m3, hid] at m5; exact m5, m6, ?_⟩
  · intro j
    rw [m2 j]
    constructor
    · rintro ⟨f, oj, h1, h2, h3⟩
      rw [List.getElem?_map] at h1
      obtain ⟨y, h4, rfl⟩ := Option.map_eq_some_iff.mp h1
      have hy := List.mem_of_getElem? h4
      rw [g.reads _ (hws j) y hy] at h2
      exact ⟨y, h4, by rw [← (dump_sound (hx y hy).clear hlines h2).2.2.1, h3, hid]⟩
    · rintro ⟨y, h4, h5⟩
      have hy := List.mem_of_getElem? h4
      obtain ⟨my, _, _, h6, _⟩ := g.dump y hy
      exact ⟨y.pre ++ y.filename, my, by simp [h4], (g.reads _ (hws j) y hy my).mpr h6, by
        rw [(dump_sound (hx y hy).clear hlines h6).2.2.1, h5, hid]⟩
  · intro hone
    have hall : ∀ j ∈ l, j = i := by
      intro j hj
      obtain ⟨f, oj, h1, h2, h3⟩ := (m2 j).mp hj
      rw [List.getElem?_map] at h1
      obtain ⟨y, h4, rfl⟩ := Option.map_eq_some_iff.mp h1
      have hy := List.mem_of_getElem? h4
      rw [g.reads _ (hws j) y hy] at h2
      exact hone j y h4 (by rw [← (dump_sound (hx y hy).clear hlines h2).2.2.1, h3, hid])
    have hmi : m = mi := by
      cases hp with
      | one j y _ h1 h2 =>
        have := hall j (by simp)
        subst this
        rw [hi] at h1; cases h1
        exact Res.ok.inj (h2.symm.trans d1)
      | more j l y my q _ h1 h2 h3 h4 h5 =>
        obtain ⟨g, hg⟩ := List.exists_mem_of_ne_nil _ h4.ne_nil
        have e1 := hall j (by simp)
        have e2 := hall g (by simp [hg])
        subst e1; subst e2
        exact absurd hg h3
    subst hmi
    rw [m4] at d2; cases d2
    rw [a2] at d3; cases d3
    exact d4

/-- **C122, inputs with one debug id.** When all the inputs have the same debug id, the program ends with status 0 if it ends; it has made one
module of all of them, and every destination that the options ask for (an output file, the standard output, the place in the store) holds
its text, which can be read and has the debug id. -/
theorem C122_one_id (env : Env) (version : Str) (cpus : Nat) (o : Options) (inputs : List Input) (w : Cache.World) (orders : Orders)
    (mapping : Option (List Mapping.Generator)) (arch : Str) (k : Nat)
    (hrun : Workable env version o inputs w orders mapping arch k) (hsome : inputs ≠ []) (id : Str) (hid : ∀ x ∈ inputs, x.obj.debugId = id)
    (out : Output.World) (code : Nat) (out' : Output.World) (hex : Exits env version cpus o w orders out code out') :
    code = 0 ∧ ∃ l m text file os cpu name, Possible env mapping o.inlines orders.tables inputs l m ∧ (∀ j, j ∈ l ↔ j < inputs.length) ∧
      m.display (some (Infos version o)) = .ok text ∧ readSymFile text = some file ∧ file.modules = [(os, cpu, id, name)] ∧
      ∀ fo, Destination o name id fo → Output.Holds out out' fo (Utf8.encode text) := by
  obtain ⟨c, rules, g⟩ := hrun.goes cpus out
  obtain ⟨hcode, ws, hws, hs⟩ := g.ends code out' hex
  have hlen : 1 < inputs.length := by
    have := List.length_pos_iff.mpr hsome
    have := hrun.notOne
    omega
  obtain ⟨l, m, t, m1, m2, m3, m4, m5⟩ := C114_one_id env (some (Infos version o)) c _ ws orders out out' mapping arch
    (by simpa using hlen) g.prep hrun.results g.plain (fun i f hf => g.parse _ (hws i) f (List.mem_of_getElem? hf)) (g.works ws hws) id (by
      intro i f hf oi hoi
      obtain ⟨x, hx, rfl⟩ := List.mem_map.mp (List.mem_of_getElem? hf)
      rw [(dump_sound (hrun.each w .start x hx).clear hrun.lines ((g.reads _ (hws i) x hx oi).mp hoi)).2.2.1]
      exact hid x hx) hs
  have hp := g.made ws hws l m m1
  have hsd := g.sound hp
  obtain ⟨t', file, a1, a2, a3, _⟩ := read_display (extra := some (Infos version o)) hsd.readable (fun e he => (hsd.good.inlines _ _ (SMap.get?_of_mem hsd.good.sorted he)).2)
  rw [m4] at a1; cases a1
  refine ⟨hcode, l, m, t, file, _, _, _, hp, by simpa using m2, m4, a2, a3.trans (by rw [m3]), ?_⟩
  intro fo hfo
  exact m5 fo ((g.requested m fo).mpr (by rw [m3]; exact hfo))

/-- **C122, two inputs with the same debug id.** Their place in the store holds one text for both.  Looking up an address of a function of one
of them finds what the debug information of that input says, unless the symbol file of the other one has a FUNC record from the start of
the function to the address; one with the very same start does not count if the other one has fewer records.  (The path mappings must be
used for both or for none.) -/
theorem C122_merged (env : Env) (version : Str) (cpus : Nat) (o : Options) (inputs : List Input) (w : Cache.World) (orders : Orders)
    (mapping : Option (List Mapping.Generator)) (arch : Str) (k : Nat) (dir : Str)
    (hrun : Several env version o inputs w orders mapping arch k dir) (out : Output.World) :
    ∃ rules, Mapping.Configured env.map o.mappingVar o.mappingSrc o.mappingDest o.mappingFile rules ∧
      ∀ code out', Exits env version cpus o w orders out code out' →
        ∀ (i j : Nat) (x y : Input), i ≠ j → inputs[i]? = some x → inputs[j]? = some y → y.obj.debugId = x.obj.debugId →
          (∀ (g : Nat) (z : Input), inputs[g]? = some z → z.obj.debugId = x.obj.debugId → g = i ∨ g = j) →
          (x.opts = y.opts ∨ mapping = none) →
          ∃ text file p os cpu name fx fy, readSymFile text = some file ∧ file.modules = [(os, cpu, x.obj.debugId, name)] ∧
            InStore dir name x.obj.debugId p ∧ out'.files p = some (Utf8.encode text) ∧
            (x.source env mapping rules o.inlines).Describes (Infos version o) fx ∧
            (y.source env mapping rules o.inlines).Describes (Infos version o) fy ∧
            (x.source env mapping rules o.inlines).Answers (fun addr a => ∀ r ∈ fy.symbols, addr ≤ r.rva → r.rva ≤ a →
              r.isPublic = true ∨ (r.rva = addr ∧ fy.symbols.length < fx.symbols.length)) file.framesAt ∧
            (y.source env mapping rules o.inlines).Answers (fun addr a => ∀ r ∈ fx.symbols, addr ≤ r.rva → r.rva ≤ a →
              r.isPublic = true ∨ (r.rva = addr ∧ fx.symbols.length < fy.symbols.length)) file.framesAt := by
  obtain ⟨rules0, _, hmain⟩ := C122_several env version cpus o inputs w orders mapping arch k dir hrun out
  obtain ⟨c, rules, g⟩ := hrun.goes cpus out
  refine ⟨rules, g.configured, ?_⟩
  intro code out' hex i j x y hij hi hj hid hothers hopts
  obtain ⟨_, hmain⟩ := hmain code out' hex
  obtain ⟨l, m, text, file, p, os, cpu, name, h1, h2, h3, h4, h5, h6, h7, _⟩ := hmain i x hi
  obtain ⟨fx, fy, k1, k2, k3, k4⟩ := two_answers (fun x hm => (hrun.each w .start x hm).clear) hrun.lines hrun.size hrun.below hrun.hashes g.dump g.maps hij hi hj hid hopts h1 (by
    intro b
    rw [h2 b]
    constructor
    · rintro ⟨z, e1, e2⟩; exact hothers b z e1 e2
    · rintro (rfl | rfl)
      · exact ⟨x, hi, rfl⟩
      · exact ⟨y, hj, hid⟩) h3 h4
  exact ⟨text, file, p, os, cpu, name, fx, fy, h4, h5, h6, h7, k1, k2, k3, k4⟩

/-- **C122, two inputs with the same debug id, by their debug information.** Their place in the store holds one text for both.  Looking up
an address of a function of either input finds what its debug information says, unless a function of the other one starts from the start
of the function to the address. -/
theorem C122_disjoint (env : Env) (version : Str) (cpus : Nat) (o : Options) (inputs : List Input) (w : Cache.World) (orders : Orders)
    (mapping : Option (List Mapping.Generator)) (arch : Str) (k : Nat) (dir : Str)
    (hrun : Several env version o inputs w orders mapping arch k dir) (out : Output.World) :
    ∃ rules, Mapping.Configured env.map o.mappingVar o.mappingSrc o.mappingDest o.mappingFile rules ∧
      ∀ code out', Exits env version cpus o w orders out code out' →
        ∀ (i j : Nat) (x y : Input), i ≠ j → inputs[i]? = some x → inputs[j]? = some y → y.obj.debugId = x.obj.debugId →
          (∀ (g : Nat) (z : Input), inputs[g]? = some z → z.obj.debugId = x.obj.debugId → g = i ∨ g = j) →
          (x.opts = y.opts ∨ mapping = none) →
          ∃ text file p os cpu name, readSymFile text = some file ∧ file.modules = [(os, cpu, x.obj.debugId, name)] ∧
            InStore dir name x.obj.debugId p ∧ out'.files p = some (Utf8.encode text) ∧
            (x.source env mapping rules o.inlines).Answers (fun addr a => ∀ b, addr ≤ b → b ≤ a → ¬ y.StartsAt b) file.framesAt ∧
            (y.source env mapping rules o.inlines).Answers (fun addr a => ∀ b, addr ≤ b → b ≤ a → ¬ x.StartsAt b) file.framesAt := by
  obtain ⟨rules, h1, h2⟩ := C122_merged env version cpus o inputs w orders mapping arch k dir hrun out
  refine ⟨rules, h1, ?_⟩
  intro code out' hex i j x y hij hi hj hid hothers hopts
  obtain ⟨text, file, p, os, cpu, name, fx, fy, k1, k2, k3, k4, k5, k6, k7, k8⟩ := h2 code out' hex i j x y hij hi hj hid hothers hopts
  refine ⟨text, file, p, os, cpu, name, k1, k2, k3, k4, k7.mono ?_, k8.mono ?_⟩
  · intro addr a h r hr h1 h2
    cases hp : r.isPublic with
    | true => exact .inl rfl
    | false => exact absurd (startsAt_of_record k6 hr hp) (h _ h1 h2)
  · intro addr a h r hr h1 h2
    cases hp : r.isPublic with
    | true => exact .inl rfl
    | false => exact absurd (startsAt_of_record k5 hr hp) (h _ h1 h2)

/-- **C122, a run on two inputs with one debug id** (a stripped file and its debug file, say), whatever the destinations: an output file, the
standard output, the store.  The program ends with status 0 if it ends, and each destination holds one text for both inputs.  Looking up an
address of a function of either input finds what its debug information says, unless a function of the other one starts from the start of
the function to the address. -/
theorem C122_pair (env : Env) (version : Str) (cpus : Nat) (o : Options) (x y : Input) (w : Cache.World) (orders : Orders)
    (mapping : Option (List Mapping.Generator)) (arch : Str) (k : Nat)
    (hrun : Workable env version o [x, y] w orders mapping arch k) (hid : y.obj.debugId = x.obj.debugId)
    (hopts : x.opts = y.opts ∨ mapping = none) (out : Output.World) :
    ∃ rules, Mapping.Configured env.map o.mappingVar o.mappingSrc o.mappingDest o.mappingFile rules ∧
      ∀ code out', Exits env version cpus o w orders out code out' → code = 0 ∧
        ∃ text file os cpu name, readSymFile text = some file ∧ file.modules = [(os, cpu, x.obj.debugId, name)] ∧
          (∀ fo, Destination o name x.obj.debugId fo → Output.Holds out out' fo (Utf8.encode text)) ∧
          (x.source env mapping rules o.inlines).Answers (fun addr a => ∀ b, addr ≤ b → b ≤ a → ¬ y.StartsAt b) file.framesAt ∧
          (y.source env mapping rules o.inlines).Answers (fun addr a => ∀ b, addr ≤ b → b ≤ a → ¬ x.StartsAt b) file.framesAt := by
  obtain ⟨c, rules, g⟩ := hrun.goes cpus out
  refine ⟨rules, g.configured, ?_⟩
  intro code out' hex
  obtain ⟨hcode, l, m, text, file, os, cpu, name, h1, h2, h3, h4, h5, h6⟩ := C122_one_id env version cpus o [x, y] w orders mapping arch k hrun
    (by simp) x.obj.debugId (by
      intro z hz
      simp only [List.mem_cons, List.not_mem_nil, or_false] at hz
      rcases hz with rfl | rfl
      · rfl
      · exact hid) out code out' hex
  obtain ⟨fx, fy, k5, k6, k7, k8⟩ := two_answers (i := 0) (j := 1) (fun x hm => (hrun.each w .start x hm).clear) hrun.lines hrun.size hrun.below hrun.hashes g.dump g.maps (by decide) rfl rfl hid hopts h1 (by
    intro b
    rw [h2 b]
    simp only [List.length_cons, List.length_nil]
    omega) h3 h4
  refine ⟨hcode, text, file, os, cpu, name, h4, h5, h6, k7.mono ?_, k8.mono ?_⟩
  · intro addr a h r hr h1 h2
    cases hp : r.isPublic with
    | true => exact .inl rfl
    | false => exact absurd (startsAt_of_record k6 hr hp) (h _ h1 h2)
  · intro addr a h r hr h1 h2
    cases hp : r.isPublic with
    | true => exact .inl rfl
    | false => exact absurd (startsAt_of_record k5 hr hp) (h _ h1 h2)

/-- **C122, whether the program can end.**  Given two inputs or more that can be dumped, the program can end (with status 0) exactly if it is
given two jobs or more, or one job and inputs with one debug id. -/
theorem C122_can_end_iff (env : Env) (version : Str) (cpus : Nat) (o : Options) (inputs : List Input) (w : Cache.World) (orders : Orders)
    (mapping : Option (List Mapping.Generator)) (arch : Str) (k : Nat) (hrun : Workable env version o inputs w orders mapping arch k)
    (out : Output.World) (jobs : Nat) (hjobs : Mapping.Numeral o.numJobs jobs ∨ ((∀ n, ¬ Mapping.Numeral o.numJobs n) ∧ jobs = cpus))
    (htwo : 2 ≤ inputs.length) :
    (∃ code out', Exits env version cpus o w orders out code out') ↔
      2 ≤ jobs ∨ (jobs = 1 ∧ ∀ x ∈ inputs, ∀ y ∈ inputs, x.obj.debugId = y.obj.debugId) := by
  obtain ⟨c, rules, g⟩ := hrun.goes cpus out
  have hj : c.numJobs = jobs := (g.config.jobs jobs).mpr hjobs
  have hids : ∀ ws : Nat → Cache.World, (∀ i, Meanwhile env w (ws i)) → ∀ f d (hf : f < inputs.length),
      Threads.HasId (threads env (some (Infos version o)) c (inputs.map fun x => x.pre ++ x.filename) ws orders mapping arch out) f d ↔
        d = (inputs[f]).obj.debugId := by
    intro ws hw f d hf
    obtain ⟨m, _, _, h1, _⟩ := g.dump inputs[f] (List.getElem_mem hf)
    have h2 := (g.reads (ws f) (hw f) inputs[f] (List.getElem_mem hf) m).mpr h1
    have h3 := (dump_sound (hrun.each w .start _ (List.getElem_mem hf)).clear hrun.lines h1).2.2.1
    have h4 : (threads env (some (Infos version o)) c (inputs.map fun x => x.pre ++ x.filename) ws orders mapping arch out).parse f = .ok m := by
      simp only [threads, List.getElem?_map, List.getElem?_eq_getElem hf, Option.map_some]
      exact h2
    constructor
    · rintro ⟨m', a, b⟩
      rw [h4] at a; cases a
      rw [← b, h3]
    · rintro rfl
      exact ⟨m, h4, h3⟩
  have hret : ∀ ws : Nat → Cache.World, (∀ i, Meanwhile env w (ws i)) →
      ((∃ s, Threads.Reachable (threads env (some (Infos version o)) c (inputs.map fun x => x.pre ++ x.filename) ws orders mapping arch out) s ∧
        s.Returned (threads env (some (Infos version o)) c (inputs.map fun x => x.pre ++ x.filename) ws orders mapping arch out)) ↔
      2 ≤ jobs ∨ (jobs = 1 ∧ ∀ x ∈ inputs, ∀ y ∈ inputs, x.obj.debugId = y.obj.debugId)) := by
    intro ws hw
    have hmin : ∀ n : Nat, n ≤ 2 → (n ≤ min c.numJobs (inputs.map fun x => x.pre ++ x.filename).length ↔ n ≤ jobs) := by
      intro n hn
      rw [List.length_map, hj]; omega
    rw [Threads.C51_can_return_iff _ (by exact hrun.results) (g.smooth ws hw) (by simpa [threads] using htwo)]
    refine or_congr (hmin 2 (by omega)) (and_congr ?_ ?_)
    · have h1 := hmin 1 (by omega)
      have h2 := hmin 2 (by omega)
      simp only [threads]; omega
    · constructor
      · intro h x hx y hy
        obtain ⟨f, hf, rfl⟩ := List.mem_iff_getElem.mp hx
        obtain ⟨f', hf', rfl⟩ := List.mem_iff_getElem.mp hy
        exact h f f' _ _ (by simpa [threads] using hf) (by simpa [threads] using hf') ((hids ws hw f _ hf).mpr rfl) ((hids ws hw f' _ hf').mpr rfl)
      · intro h f f' d d' hf hf' hd hd'
        have hf : f < inputs.length := by simpa [threads] using hf
        have hf' : f' < inputs.length := by simpa [threads] using hf'
        rw [(hids ws hw f d hf).mp hd, (hids ws hw f' d' hf').mp hd']
        exact h _ (List.getElem_mem hf) _ (List.getElem_mem hf')
  constructor
  · rintro ⟨code, out', h⟩
    obtain ⟨_, ws, hw, hs⟩ := g.ends code out' h
    refine (hret ws hw).mp ?_
    cases hs with
    | returned mapping' arch' m hp hr hs =>
      rw [g.prep] at hp; cases hp
      exact ⟨m.s, Threads.moments_reach hr, hs⟩
  · intro h
    obtain ⟨s, h1, h2⟩ := (hret (fun _ => w) (fun _ => .start)).mpr h
    obtain ⟨m, k1, k2, _⟩ := Threads.reach_moments
      (fun s hs => Threads.reach_not_crashed (by exact hrun.results) (g.smooth _ fun _ => .start) hs)
      (callsOf env.io (some (Infos version o)) c.output c.checkCfi) out h1
    subst k2
    refine ⟨_, m.out, .acts _ (.ok ()) m.out g.infos ?_⟩
    rw [g.action, hrun.files]
    exact .several c _ _ _ (by simpa using hrun.notOne) (fun _ => .start) (.returned mapping arch m g.prep k1 h2)

end WinHost
end DumpSyms
