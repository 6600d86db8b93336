import Verif.Props.Process
/-!
# C85: a run of the program on several files, end to end
-/
namespace DumpSyms
open ObjectInfo Collector Reader

namespace Run
open Dumper

/-- An input of a run over several files: where it is, what is read there, and what it is dumped from. -/
structure Input where
  pre : Str
  filename : Str
  buf : Bytes
  obj : ObjInput
  name : Str
  pe : Option ObjInput
  peName : Option Str
  platform : Platform
  opts : Bool
  fs : List (Option Func)
  embedded : List Public

namespace Input

/-- The surroundings of the dump. -/
def cenv (x : Input) (env : Env) (mapping : Option (List Mapping.Generator)) : CEnv :=
  Dumper.cenv env x.platform (if x.opts then mapping else none) x.obj

/-- What the input is dumped from, with the paths printed as the rules say. -/
def source (x : Input) (env : Env) (mapping : Option (List Mapping.Generator)) (rules : List Mapping.Rule) (inlines : Bool) : DumpSource where
  env := x.cenv env mapping
  platform := x.platform
  main := x.obj
  fs := x.fs
  publics := x.obj.publics ++ x.embedded
  name := x.name
  pe := x.pe
  peName := x.peName
  inlines := inlines && x.opts
  prints := fun c r q => ∃ p,
    RecordedPath x.platform (OnHost env.os x.platform ∧ ¬ (x.obj.format = .pe ∧ x.obj.hasDebugInfo = true)) env.canon c r p ∧
    Mapping.MapsTo env.map (if x.opts then rules else []) p q

/-- The unwind text of the input. -/
def unwind (x : Input) : Str := ((x.pe.bind (·.unwind)).or x.obj.unwind).getD []

/-- The dump of the input. -/
def Dumps (x : Input) (env : Env) (mapping : Option (List Mapping.Generator)) (inlines : Bool) (m : ObjectInfo) : Prop :=
  ObjectInfo.fromObject (x.cenv env mapping) (inlines && x.opts) x.platform x.obj x.name x.pe x.peName = .ok m

/-- The debug information of the input can be read, and its texts are on one line. -/
structure Clear (x : Input) (env : Env) (mapping : Option (List Mapping.Generator)) (infos : List Str) : Prop where
  ok : ∃ mem U V, ObjOk (x.cenv env mapping) mem U V x.platform x.obj x.fs
  plain : PlainTexts (x.cenv env mapping) x.platform x.obj x.fs x.name x.pe x.peName
  code : x.obj.codeId = none → (∀ q, x.pe = some q → q.codeId = none) → ∀ l, infos.head? = some l → ¬ str% "CODE_ID " <+: l
  embeds : x.obj.Embeds x.embedded

/-- The input is there (C77, C81; several files are looked for without a symbol server), its debug information can be read, and its texts
are on one line. -/
structure Ok (x : Input) (env : Env) (mapping : Option (List Mapping.Generator)) (arch : Str) (w : Cache.World) (infos : List Str) : Prop where
  dir : DirPart x.pre
  filename : ProperComp x.filename
  holds : PathHolds env.net.cab w.disk (x.pre ++ x.filename) x.buf
  sane : SanePe env x.buf
  dumped : ∃ after, DumpedFrom env x.buf (x.pre ++ x.filename) x.filename arch none w x.obj x.name x.pe x.peName x.platform x.opts after
  ok : ∃ mem U V, ObjOk (x.cenv env mapping) mem U V x.platform x.obj x.fs
  plain : PlainTexts (x.cenv env mapping) x.platform x.obj x.fs x.name x.pe x.peName
  code : x.obj.codeId = none → (∀ q, x.pe = some q → q.codeId = none) → ∀ l, infos.head? = some l → ¬ str% "CODE_ID " <+: l
  embeds : x.obj.Embeds x.embedded
  id : ProperComp x.obj.debugId

theorem Ok.clear {x : Input} {env : Env} {mapping : Option (List Mapping.Generator)} {arch : Str} {w : Cache.World} {infos : List Str}
    (h : x.Ok env mapping arch w infos) : x.Clear env mapping infos := ⟨h.ok, h.plain, h.code, h.embeds⟩

end Input

/-- The module `m` can be made from the inputs with the numbers `l`, each taken once: the last is dumped first, and the others are merged
into what there is. -/
inductive Possible (env : Env) (mapping : Option (List Mapping.Generator)) (inlines : Bool) (tables : List Nat → List (Str × Nat) → List (Str × Nat))
    (inputs : List Input) : List Nat → ObjectInfo → Prop where
  | one (i : Nat) (x : Input) (m : ObjectInfo) (hi : inputs[i]? = some x) (hm : x.Dumps env mapping inlines m) :
      Possible env mapping inlines tables inputs [i] m
  | more (i : Nat) (l : List Nat) (x : Input) (m p c : ObjectInfo) (hi : inputs[i]? = some x) (hm : x.Dumps env mapping inlines m)
      (hl : i ∉ l) (hp : Possible env mapping inlines tables inputs l p) (hc : ObjectInfo.merge (tables (i :: l)) m p = .ok c) :
      Possible env mapping inlines tables inputs (i :: l) c

theorem Input.Ok.parse {env : Env} {mapping : Option (List Mapping.Generator)} {arch : Str} {w : Cache.World} {infos : List Str} {x : Input}
    (h : x.Ok env mapping arch w infos) (hsane : Sane env w.disk) (config : Config) :
    (parseInput env config mapping arch (x.pre ++ x.filename) w).1 =
      ObjectInfo.fromObject (x.cenv env mapping) (config.emitInlines && x.opts) x.platform x.obj x.name x.pe x.peName := by
  unfold parseInput
  have h1 : Utils.getFilename (x.pre ++ x.filename) = .ok x.filename := by
    unfold Utils.getFilename
    rw [fileName_dirPart h.dir h.filename]
  have h2 : Files.readFile env.net.cab w.disk (x.pre ++ x.filename) = .ok x.buf :=
    ((C77_read env.net.cab w.disk x.pre x.filename h.dir h.filename hsane.dirs).1 _).mpr h.holds
  obtain ⟨after, hdumped⟩ := h.dumped
  rw [h1, h2]
  simp only
  rw [C81_complete env arch none h.dir h.filename hsane h.sane hdumped mapping config.emitInlines]
  rfl

theorem Possible.ne_nil {env : Env} {mapping : Option (List Mapping.Generator)} {inlines : Bool}
    {tables : List Nat → List (Str × Nat) → List (Str × Nat)} {inputs : List Input} {l : List Nat} {m : ObjectInfo}
    (h : Possible env mapping inlines tables inputs l m) : l ≠ [] := by cases h <;> simp

/-- What is known of a module made from inputs that are as they should be. -/
structure Sound (inputs : List Input) (infos : List Str) (k : Nat) (l : List Nat) (m : ObjectInfo) : Prop where
  good : m.Good
  readable : m.Readable infos
  files : m.files.idToRef.length ≤ k * l.length
  origins : m.inlineOrigins.length ≤ k * l.length
  nodup : l.Nodup
  bound : ∀ i ∈ l, i < inputs.length
  stack : (∀ x ∈ inputs, x.unwind ≠ []) → m.stack ≠ []

theorem dump_sound {env : Env} {mapping : Option (List Mapping.Generator)} {infos : List Str} {x : Input}
    (h : x.Clear env mapping infos) (hinfos : ∀ l ∈ infos, OneLine l) {inlines : Bool} {m : ObjectInfo} (hm : x.Dumps env mapping inlines m) :
    m.Good ∧ m.Readable infos ∧ m.debugId = x.obj.debugId ∧ (x.unwind ≠ [] → m.stack ≠ []) := by
  obtain ⟨mem, U, V, hok⟩ := h.ok
  have hd : Dumped m := ⟨_, _, mem, U, V, _, _, _, _, _, _, _, hok, rfl, hm⟩
  obtain ⟨k1, k2, k3, k4, k5, k6, k7⟩ := fromObject_header hm
  refine ⟨hd.good, C83_readable _ mem U V _ _ _ hok _ _ _ _ _ hm h.plain infos hinfos h.code, k3, ?_⟩
  intro hu hs
  refine hu ?_
  rw [k6] at hs
  unfold getStackInfo at hs
  unfold Input.unwind
  generalize x.pe.bind (·.unwind) = y at hs
  cases y <;> exact hs

theorem Possible.sound {env : Env} {mapping : Option (List Mapping.Generator)} {infos : List Str}
    {inlines : Bool} {tables : List Nat → List (Str × Nat) → List (Str × Nat)} (htab : ∀ l, IterOrder (tables l)) {inputs : List Input}
    (hx : ∀ x ∈ inputs, x.Clear env mapping infos) (hinfos : ∀ l ∈ infos, OneLine l)
    {k : Nat} (hsize : ∀ x ∈ inputs, ∀ m, x.Dumps env mapping inlines m → m.files.getMapping.length ≤ k ∧ m.inlineOrigins.length ≤ k)
    (hk : k * inputs.length < M32) {l : List Nat} {m : ObjectInfo}
    (h : Possible env mapping inlines tables inputs l m) : Sound inputs infos k l m := by
  induction h with
  | one i x m hi hm =>
    have hmem := List.mem_of_getElem? hi
    obtain ⟨a1, a2, _, a3⟩ := dump_sound (hx x hmem) hinfos hm
    obtain ⟨b1, b2⟩ := hsize x hmem m hm
    exact ⟨a1, a2, by simpa [SourceMap.getMapping] using b1, by simpa using b2, by simp, by
      intro j hj; simp at hj; subst hj; exact (List.getElem?_eq_some_iff.mp hi).1, fun h => a3 (h x hmem)⟩
  | more i l x m p c hi hm hl hp hc ih =>
    have hmem := List.mem_of_getElem? hi
    obtain ⟨a1, a2, _, a3⟩ := dump_sound (hx x hmem) hinfos hm
    obtain ⟨b1, b2⟩ := hsize x hmem m hm
    have hn : (i :: l).Nodup := List.nodup_cons.mpr ⟨hl, ih.nodup⟩
    have hb : ∀ j ∈ i :: l, j < inputs.length := by
      intro j hj
      rcases List.mem_cons.mp hj with rfl | hj
      · exact (List.getElem?_eq_some_iff.mp hi).1
      · exact ih.bound j hj
    have hlen : (i :: l).length ≤ inputs.length := by
      have := List.Nodup.length_le_of_subset hn (l₂ := List.range inputs.length) (fun j hj => List.mem_range.mpr (hb j hj))
      simpa using this
    have hk' : k * (i :: l).length < M32 := Nat.lt_of_le_of_lt (Nat.mul_le_mul_left k hlen) hk
    rw [List.length_cons, Nat.mul_succ] at hk'
    have b1' : m.files.idToRef.length ≤ k := by simpa [SourceMap.getMapping] using b1
    obtain ⟨f1, f2⟩ := merge_ok hc
    have := ih.files
    have := ih.origins
    obtain ⟨c', g1, g2, g3, g4, g5⟩ := merge_good (htab (i :: l)) a1 ih.good f1 (by omega) (by omega)
    rw [hc] at g1; cases g1
    refine ⟨g2, C83_merged _ _ _ _ infos a2 ih.readable hc, ?_, ?_, hn, hb, ?_⟩
    · rw [List.length_cons, Nat.mul_succ]; omega
    · rw [List.length_cons, Nat.mul_succ]; omega
    · intro hall hs
      have hm' := a3 (hall x hmem)
      have hp' := ih.stack hall
      by_cases hlt : p.symbols.length < m.symbols.length
      · obtain ⟨_, _, q⟩ := C24_merged_stack _ _ _ _ _ _ (.inl ⟨hlt, rfl, rfl⟩) hc
        obtain ⟨first, e, _⟩ := q hm' hp'
        rw [e] at hs
        exact hp' (List.append_eq_nil_iff.mp hs).2
      · obtain ⟨_, _, q⟩ := C24_merged_stack _ _ _ _ _ _ (.inr ⟨by omega, rfl, rfl⟩) hc
        obtain ⟨first, e, _⟩ := q hp' hm'
        rw [e] at hs
        exact hm' (List.append_eq_nil_iff.mp hs).2

theorem possible_of_made {env : Env} {mapping : Option (List Mapping.Generator)} {arch : Str} {ws : Nat → Cache.World} {infos : List Str}
    {inputs : List Input} (hx : ∀ i, ∀ x ∈ inputs, x.Ok env mapping arch (ws i) infos) (hsane : ∀ i, Sane env (ws i).disk) {config : Config} {orders : Orders}
    {out : Output.World} {l : List Nat} {m : ObjectInfo} (hn : l.Nodup)
    (h : Threads.Made (threads env (some infos) config (inputs.map fun x => x.pre ++ x.filename) ws orders mapping arch out) l m) :
    Possible env mapping config.emitInlines orders.tables inputs l m := by
  have hone : ∀ i m, (threads env (some infos) config (inputs.map fun x => x.pre ++ x.filename) ws orders mapping arch out).parse i = .ok m →
      ∃ x, inputs[i]? = some x ∧ x.Dumps env mapping config.emitInlines m := by
    intro i m h
    simp only [threads, List.getElem?_map] at h
    cases hi : inputs[i]? with
    | none => rw [hi] at h; cases h
    | some x =>
      rw [hi] at h
      simp only [Option.map_some] at h
      rw [(hx i x (List.mem_of_getElem? hi)).parse (hsane i)] at h
      exact ⟨x, rfl, h⟩
  induction h with
  | one i m hm =>
    obtain ⟨x, h1, h2⟩ := hone i m hm
    exact .one i x m h1 h2
  | more i l m p c hm hp hc ih =>
    obtain ⟨x, h1, h2⟩ := hone i m hm
    obtain ⟨n1, n2⟩ := List.nodup_cons.mp hn
    exact .more i l x m p c h1 h2 n1 (ih n2) hc

/-- What is required of a run over several files.  Every input is there and can be read (`Input.Ok`), also when other
workers have put something into the caches of the symbol servers; the tables of the merged modules stay below
2^32 entries, unwind information is there if `--check-cfi` asks for it, and the disk takes whatever can be made of the inputs. -/
structure Workable (env : Env) (version : Str) (o : Options) (inputs : List Input) (w : Cache.World) (orders : Orders)
    (mapping : Option (List Mapping.Generator)) (arch : Str) (k : Nat) : Prop where
  sha : ∀ d, ∀ b ∈ env.map.sha512 d, b < 256
  order : ∀ l, (env.map.order l).Perm l
  noList : o.listArch = false
  files : o.filenames = inputs.map fun x => x.pre ++ x.filename
  notOne : inputs.length ≠ 1
  info : ∀ v ∈ o.extraInfo.getD [], Main.InfoLine v
  lines : ∀ l ∈ Infos version o, OneLine l
  sane : Sane env w.disk
  results : ∀ t, (orders.results t).Perm t
  hashes : ∀ l, IterOrder (orders.tables l)
  rules : Mapping.new env.map o.mappingVar o.mappingSrc o.mappingDest o.mappingFile = .ok mapping
  knownArch : env.parsers.arch o.arch = some arch
  each : ∀ w', Meanwhile env w w' → ∀ x ∈ inputs, x.Ok env mapping arch w' (Infos version o)
  size : ∀ x ∈ inputs, ∀ m, x.Dumps env mapping o.inlines m → m.files.getMapping.length ≤ k ∧ m.inlineOrigins.length ≤ k
  below : k * inputs.length < M32
  cfi : o.checkCfi = true → ∀ x ∈ inputs, x.unwind ≠ []
  parts : ∀ t, (env.io.chunks t).flatten = Utf8.encode t
  mkdirs : ∀ d, env.io.mkdirs d = true
  create : ∀ p, env.io.create p = true
  room : ∀ l m t, Possible env mapping o.inlines orders.tables inputs l m → m.display (some (Infos version o)) = .ok t →
    ∀ fo, (Utf8.encode t).length ≤ env.io.room fo

/-- What is required of a run over several files with a store: the output file (if there is one) is not a place of the store. -/
structure Several (env : Env) (version : Str) (o : Options) (inputs : List Input) (w : Cache.World) (orders : Orders)
    (mapping : Option (List Mapping.Generator)) (arch : Str) (k : Nat) (dir : Str) : Prop
    extends Workable env version o inputs w orders mapping arch k where
  store : o.store = some dir
  named : dir ≠ []
  output : ∀ f, o.output = some f → f ≠ ['-'] → ∀ name id, ¬ InStore dir name id f

/-- How a run over several files goes. -/
structure Goes (env : Env) (version : Str) (cpus : Nat) (o : Options) (inputs : List Input) (w : Cache.World) (orders : Orders)
    (mapping : Option (List Mapping.Generator)) (arch : Str) (k : Nat) (out : Output.World) (c : Config) (rules : List Mapping.Rule) : Prop where
  config : Configures cpus o c
  action : actionOf cpus o = .dump c
  prep : prepare env c = .ok (mapping, arch)
  configured : Mapping.Configured env.map o.mappingVar o.mappingSrc o.mappingDest o.mappingFile rules
  maps : ∀ platform obj p, ((Dumper.cenv env platform mapping obj).src.mapPanics p = true ↔ Mapping.Unreadable env.map rules p) ∧
      (¬ Mapping.Unreadable env.map rules p → ∀ r, Mapping.MapsTo env.map rules p r ↔
        r = ((Dumper.cenv env platform mapping obj).src.mapping p).getD p)
  dump : ∀ x ∈ inputs, ∃ m text file, x.Dumps env mapping o.inlines m ∧ m.display (some (Infos version o)) = .ok text ∧
      readSymFile text = some file ∧ (x.source env mapping rules o.inlines).Describes (Infos version o) file
  reads : ∀ w', Meanwhile env w w' → ∀ x ∈ inputs, ∀ m, (parseInput env c mapping arch (x.pre ++ x.filename) w').1 = .ok m ↔ x.Dumps env mapping o.inlines m
  made : ∀ ws : Nat → Cache.World, (∀ i, Meanwhile env w (ws i)) → ∀ l m, Threads.MadeOnce (threads env (some (Infos version o)) c (inputs.map fun x => x.pre ++ x.filename) ws orders mapping arch out) l m →
      Possible env mapping o.inlines orders.tables inputs l m
  sound : ∀ {l m}, Possible env mapping o.inlines orders.tables inputs l m → Sound inputs (Infos version o) k l m
  works : ∀ ws : Nat → Cache.World, (∀ i, Meanwhile env w (ws i)) → Works env (some (Infos version o)) c (threads env (some (Infos version o)) c (inputs.map fun x => x.pre ++ x.filename) ws orders mapping arch out)
  parse : ∀ w', Meanwhile env w w' → ∀ f ∈ inputs.map (fun x => x.pre ++ x.filename), ∃ m, (parseInput env c mapping arch f w').1 = .ok m ∧ ProperComp m.debugId
  ends : ∀ code out', Exits env version cpus o w orders out code out' → code = 0 ∧ ∃ ws : Nat → Cache.World, (∀ i, Meanwhile env w (ws i)) ∧
      SeveralFiles env (some (Infos version o)) c (inputs.map fun x => x.pre ++ x.filename) ws orders out (.ok ()) out'
  smooth : ∀ ws : Nat → Cache.World, (∀ i, Meanwhile env w (ws i)) → (threads env (some (Infos version o)) c (inputs.map fun x => x.pre ++ x.filename) ws orders mapping arch out).Smooth
  infos : Main.getExtraInfo version o.extraInfo o.noGenerator = .ok (Infos version o)

theorem Workable.goes {env : Env} {version : Str} {o : Options} {inputs : List Input} {w : Cache.World} {orders : Orders}
    {mapping : Option (List Mapping.Generator)} {arch : Str} {k : Nat} (hrun : Workable env version o inputs w orders mapping arch k)
    (cpus : Nat) (out : Output.World) : ∃ c rules, Goes env version cpus o inputs w orders mapping arch k out c rules := by
  obtain ⟨hsha, hord, hla, hfiles, hlen, hinfo, hlines, hsane, hres, htab, hmap, harch, hx, hsize, hk, hcfi, hparts, hmk, hcr, hroom⟩ := hrun
  obtain ⟨c, hact, hc⟩ := (C64_config cpus o).2 hla
  have hin : c.emitInlines = o.inlines := hc.reading.2
  have hprep : prepare env c = .ok (mapping, arch) := by
    unfold prepare
    rw [hc.mapping.1, hc.mapping.2.1, hc.mapping.2.2.1, hc.mapping.2.2.2, hmap, hc.reading.1, harch]
    rfl
  obtain ⟨rules, x1, x2⟩ := C79_rules env hsha hord _ _ _ _ mapping hmap
  have hdump : ∀ x ∈ inputs, ∃ m text file, x.Dumps env mapping o.inlines m ∧ m.display (some (Infos version o)) = .ok text ∧
      readSymFile text = some file ∧ (x.source env mapping rules o.inlines).Describes (Infos version o) file := by
    intro x hmem
    obtain ⟨mem, U, V, hok⟩ := (hx w .start x hmem).ok
    obtain ⟨m, text, file, y1, y2, y3, y4⟩ := C84_described _ mem U V x.platform x.obj x.fs hok (o.inlines && x.opts) x.name x.pe x.peName
      (hx w .start x hmem).plain (Infos version o) hlines (hx w .start x hmem).code x.embedded (hx w .start x hmem).embeds
    exact ⟨m, text, file, y1, y2, y3, y4.prints (prints_mapped hok (x2 x.platform x.obj))⟩
  have hmade : ∀ ws : Nat → Cache.World, (∀ i, Meanwhile env w (ws i)) → ∀ l m, Threads.MadeOnce (threads env (some (Infos version o)) c (inputs.map fun x => x.pre ++ x.filename) ws orders mapping arch out) l m →
      Possible env mapping o.inlines orders.tables inputs l m := by
    intro ws hw l m h
    rw [← hin]
    exact possible_of_made (fun i => hx (ws i) (hw i)) (fun i => (hw i).sane hsane) h.1 h.2.2
  have hsound : ∀ {l m}, Possible env mapping o.inlines orders.tables inputs l m → Sound inputs (Infos version o) k l m :=
    fun h => h.sound htab (fun x hm => (hx w .start x hm).clear) hlines hsize hk
  have hworks : ∀ ws : Nat → Cache.World, (∀ i, Meanwhile env w (ws i)) → Works env (some (Infos version o)) c (threads env (some (Infos version o)) c (inputs.map fun x => x.pre ++ x.filename) ws orders mapping arch out) := by
    intro ws hw
    refine ⟨hmk, hcr, hparts, ?_, ?_⟩
    · intro l m h
      have hs := hsound (hmade ws hw l m h)
      obtain ⟨t, file, a1, _⟩ := read_display (extra := some (Infos version o)) hs.readable (fun e he => (hs.good.inlines _ _ (SMap.get?_of_mem hs.good.sorted he)).2)
      exact ⟨t, a1, hroom l m t (hmade ws hw l m h) a1⟩
    · intro h l m hm
      rw [hc.checkCfi] at h
      exact (hsound (hmade ws hw l m hm)).stack (hcfi h)
  have hparse : ∀ w', Meanwhile env w w' → ∀ f ∈ inputs.map (fun x => x.pre ++ x.filename),
      ∃ m, (parseInput env c mapping arch f w').1 = .ok m ∧ ProperComp m.debugId := by
    intro w' hw f hf
    obtain ⟨x, hmem, rfl⟩ := List.mem_map.mp hf
    obtain ⟨m, _, _, h1, _⟩ := hdump x hmem
    refine ⟨m, by rw [(hx w' hw x hmem).parse (hw.sane hsane), hin]; exact h1, ?_⟩
    rw [(dump_sound (hx w .start x hmem).clear hlines h1).2.2.1]
    exact (hx w .start x hmem).id
  have hsm : ∀ ws : Nat → Cache.World, (∀ i, Meanwhile env w (ws i)) → (threads env (some (Infos version o)) c (inputs.map fun x => x.pre ++ x.filename) ws orders mapping arch out).Smooth := by
    intro ws hw
    refine ⟨?_, ?_, ?_⟩
    · intro f hf
      simp only [threads, List.length_map] at hf
      obtain ⟨m, h1, _⟩ := hparse (ws f) (hw f) (inputs[f].pre ++ inputs[f].filename) (List.mem_map.mpr ⟨inputs[f], List.getElem_mem hf, rfl⟩)
      refine ⟨m, ?_⟩
      simp only [threads, List.getElem?_map, List.getElem?_eq_getElem hf, Option.map_some]
      exact h1
    · intro l m hm
      obtain ⟨t, ht, hr⟩ := (hworks ws hw).prints l m hm
      obtain ⟨w', h1, _⟩ := Output.C28_complete env.io (some (Infos version o)) c.output c.checkCfi m out (made_no_slash hm.2.2)
        (fun hc => (hworks ws hw).cfi hc _ _ hm) ht (hparts t) hmk (fun p _ => hcr p) (fun fo _ => hr fo)
      simp only [threads, h1]
    · intro f l m p hn hb hm hp hid
      have hb' : ∀ g ∈ f :: l, g < inputs.length := by
        intro g hg; have := hb g hg; simpa [threads] using this
      have hlen : (f :: l).length ≤ inputs.length := by
        have := List.Nodup.length_le_of_subset hn (l₂ := List.range inputs.length) (fun j hj => List.mem_range.mpr (hb' j hj))
        simpa using this
      have hk' : k * (f :: l).length < M32 := Nat.lt_of_le_of_lt (Nat.mul_le_mul_left k hlen) hk
      rw [List.length_cons, Nat.mul_succ] at hk'
      have s1 := hsound (hmade ws hw [f] m ⟨by simp, by intro g hg; simp at hg; subst hg; exact hb g (by simp), .one f m hm⟩)
      have s2 := hsound (hmade ws hw l p ⟨(List.nodup_cons.mp hn).2, fun g hg => hb g (by simp [hg]), hp⟩)
      have := s1.files; have := s1.origins; have := s2.files; have := s2.origins
      simp only [List.length_cons, List.length_nil] at *
      obtain ⟨c', g1, _⟩ := merge_good (htab (f :: l)) s1.good s2.good hid (by omega) (by omega)
      exact ⟨c', g1⟩
  have hextra := extra_ok (version := version) hinfo
  refine ⟨c, rules, hc, hact, hprep, x1, x2, hdump, ?_, hmade, hsound, hworks, hparse, ?_, hsm, hextra⟩
  · intro w' hw x hmem m
    rw [(hx w' hw x hmem).parse (hw.sane hsane), hin]
    rfl
  · intro code out' hex
    cases hex with
    | badInfo h => exact absurd hextra (h _)
    | acts extra r out' h ha =>
      rw [hextra] at h; cases h
      rw [hact, hfiles] at ha
      cases ha with
      | single config g hg => exact absurd (by have := congrArg List.length hg; simpa using this) hlen
      | several config ws r out' hlen' hw hs =>
        have hr : r = .ok () := by
          cases hs with
          | badOptions m h => rw [hprep] at h; cases h
          | badMapping h => rw [hprep] at h; cases h
          | returned => rfl
          | crashed mapping' arch' s h hr hs =>
            rw [hprep] at h; cases h
            rw [Threads.reach_not_crashed (by exact hres) (hsm ws hw) (Threads.moments_reach hr)] at hs
            cases hs
        subst hr
        exact ⟨rfl, ws, hw, hs⟩

/-- **C85.** The program run on several files with a store, from the options to the frames a user of the symbol files gets.  The program
ends with status 0 if it ends, and each input has its place in the store: it holds the text of a module made of exactly the inputs
with that debug id; the text can be read and has the debug id; and if no other input has it, the text describes the input.  (That the program
may not end is C51.) -/
theorem C85_several (env : Env) (version : Str) (cpus : Nat) (o : Options) (inputs : List Input) (w : Cache.World) (orders : Orders)
    (mapping : Option (List Mapping.Generator)) (arch : Str) (k : Nat) (dir : Str)
    (hrun : Several env version o inputs w orders mapping arch k dir) (out : Output.World) :
    ∃ rules, Mapping.Configured env.map o.mappingVar o.mappingSrc o.mappingDest o.mappingFile rules ∧
      ∀ code out', Exits env version cpus o w orders out code out' → code = 0 ∧
        ∀ (i : Nat) (x : Input), inputs[i]? = some x → ∃ l m text file p os cpu name, Possible env mapping o.inlines orders.tables inputs l m ∧
          (∀ j, j ∈ l ↔ ∃ y : Input, inputs[j]? = some y ∧ y.obj.debugId = x.obj.debugId) ∧
          m.display (some (Infos version o)) = .ok text ∧ readSymFile text = some file ∧
          file.modules = [(os, cpu, x.obj.debugId, name)] ∧ InStore dir name x.obj.debugId p ∧ out'.files p = some (Utf8.encode text) ∧
          ((∀ (j : Nat) (y : Input), inputs[j]? = some y → y.obj.debugId = x.obj.debugId → j = i) →
            (x.source env mapping rules o.inlines).Describes (Infos version o) file) := by
  obtain ⟨c, rules, g⟩ := hrun.goes cpus out
  have hx := hrun.each w .start
  have hlines := hrun.lines
  have hcout : c.output = .store dir ∨ ∃ fo, c.output = .fileAndStore fo dir ∧ ∀ name id p, InStore dir name id p → fo ≠ .path p := by
    have hceq : c.output = Output.Out.ofOptions o.output o.store := by
      have hact := g.action
      simp only [actionOf, hrun.noList, Bool.false_eq_true, if_false] at hact
      cases hact; rfl
    rw [hceq, hrun.store]
    cases ho : o.output with
    | none => exact .inl rfl
    | some f =>
      refine .inr ⟨Output.FileOutput.ofStr f, rfl, ?_⟩
      intro name id p hp
      unfold Output.FileOutput.ofStr
      by_cases hf : f = ['-']
      · simp [hf]
      · simp only [hf, if_false]
        intro h; cases h
        exact hrun.output _ ho hf _ _ hp
  refine ⟨rules, g.configured, ?_⟩
  intro code out' hex
  obtain ⟨hcode, ws, hws, hs⟩ := g.ends code out' hex
  refine ⟨hcode, ?_⟩
  intro i x hi
  have hmem := List.mem_of_getElem? hi
  obtain ⟨mi, ti, fi, d1, d2, d3, d4⟩ := g.dump x hmem
  have hid := (dump_sound (hx x hmem).clear hlines d1).2.2.1
  obtain ⟨l, m, t, p, m1, m2, m3, m4, m5, m6⟩ := C68_stored_partial env (some (Infos version o)) c _ ws orders out out' mapping arch
    (by simpa using hrun.notOne) g.prep hrun.results (fun i f hf => g.parse _ (hws i) f (List.mem_of_getElem? hf)) (g.works ws hws) dir hrun.named (by
      rcases hcout with h | ⟨fo, h1, h2⟩
      · exact .inl h
      · exact .inr ⟨fo, h1, fun l m _ p hp => h2 _ _ p hp⟩) hs i (x.pre ++ x.filename) (by simp [hi]) mi
    ((g.reads _ (hws i) x hmem mi).mpr d1)
  have hp := g.made ws hws l m m1
  have hsd := g.sound hp
  obtain ⟨t', file, a1, a2, a3, _⟩ := read_display (extra := some (Infos version o)) hsd.readable (fun e he => (hsd.good.inlines _ _ (SMap.get?_of_mem hsd.good.sorted he)).2)
  rw [m4] at a1; cases a1
  refine ⟨l, m, t, file, p, _, _, _, hp, ?_, m4, a2, a3.trans (by rw [m3, hid]), by rw [m3, hid] at m5; exact m5, m6, ?_⟩
  · intro j
    rw [m2 j]
    constructor
    · rintro ⟨f, oj, h1, h2, h3⟩
      rw [List.getElem?_map] at h1
      obtain ⟨y, h4, rfl⟩ := Option.map_eq_some_iff.mp h1
      have hy := List.mem_of_getElem? h4
      rw [g.reads _ (hws j) y hy] at h2
      exact ⟨y, h4, by rw [← (dump_sound (hx y hy).clear hlines h2).2.2.1, h3, hid]⟩
    · rintro ⟨y, h4, h5⟩
      have hy := List.mem_of_getElem? h4
      obtain ⟨my, _, _, h6, _⟩ := g.dump y hy
      exact ⟨y.pre ++ y.filename, my, by simp [h4], (g.reads _ (hws j) y hy my).mpr h6, by
        rw [(dump_sound (hx y hy).clear hlines h6).2.2.1, h5, hid]⟩
  · intro hone
    have hall : ∀ j ∈ l, j = i := by
      intro j hj
      obtain ⟨f, oj, h1, h2, h3⟩ := (m2 j).mp hj
      rw [List.getElem?_map] at h1
      obtain ⟨y, h4, rfl⟩ := Option.map_eq_some_iff.mp h1
      have hy := List.mem_of_getElem? h4
      rw [g.reads _ (hws j) y hy] at h2
      exact hone j y h4 (by rw [← (dump_sound (hx y hy).clear hlines h2).2.2.1, h3, hid])
    have hmi : m = mi := by
      cases hp with
      | one j y _ h1 h2 =>
        have := hall j (by simp)
        subst this
        rw [hi] at h1; cases h1
        exact Res.ok.inj (h2.symm.trans d1)
      | more j l y my q _ h1 h2 h3 h4 h5 =>
        obtain ⟨g, hg⟩ := List.exists_mem_of_ne_nil _ h4.ne_nil
        have e1 := hall j (by simp)
        have e2 := hall g (by simp [hg])
        subst e1; subst e2
        exact absurd hg h3
    subst hmi
    rw [m4] at d2; cases d2
    rw [a2] at d3; cases d3
    exact d4

/-- **C85, inputs with one debug id.** When all the inputs have the same debug id, the program ends with status 0 if it ends; it has made one
module of all of them, and every destination that the options ask for (an output file, the standard output, the place in the store) holds
its text, which can be read and has the debug id. -/
theorem C85_one_id (env : Env) (version : Str) (cpus : Nat) (o : Options) (inputs : List Input) (w : Cache.World) (orders : Orders)
    (mapping : Option (List Mapping.Generator)) (arch : Str) (k : Nat)
    (hrun : Workable env version o inputs w orders mapping arch k) (hsome : inputs ≠ []) (id : Str) (hid : ∀ x ∈ inputs, x.obj.debugId = id)
    (out : Output.World) (code : Nat) (out' : Output.World) (hex : Exits env version cpus o w orders out code out') :
    code = 0 ∧ ∃ l m text file os cpu name, Possible env mapping o.inlines orders.tables inputs l m ∧ (∀ j, j ∈ l ↔ j < inputs.length) ∧
      m.display (some (Infos version o)) = .ok text ∧ readSymFile text = some file ∧ file.modules = [(os, cpu, id, name)] ∧
      ∀ fo, Destination o name id fo → Output.Holds out out' fo (Utf8.encode text) := by
  obtain ⟨c, rules, g⟩ := hrun.goes cpus out
  obtain ⟨hcode, ws, hws, hs⟩ := g.ends code out' hex
  have hlen : 1 < inputs.length := by
    have := List.length_pos_iff.mpr hsome
    have := hrun.notOne
    omega
  obtain ⟨l, m, t, m1, m2, m3, m4, m5⟩ := C68_one_id env (some (Infos version o)) c _ ws orders out out' mapping arch
    (by simpa using hlen) g.prep hrun.results (fun i f hf => g.parse _ (hws i) f (List.mem_of_getElem? hf)) (g.works ws hws) id (by
      intro i f hf oi hoi
      obtain ⟨x, hx, rfl⟩ := List.mem_map.mp (List.mem_of_getElem? hf)
      rw [(dump_sound (hrun.each w .start x hx).clear hrun.lines ((g.reads _ (hws i) x hx oi).mp hoi)).2.2.1]
      exact hid x hx) hs
  have hp := g.made ws hws l m m1
  have hsd := g.sound hp
  obtain ⟨t', file, a1, a2, a3, _⟩ := read_display (extra := some (Infos version o)) hsd.readable (fun e he => (hsd.good.inlines _ _ (SMap.get?_of_mem hsd.good.sorted he)).2)
  rw [m4] at a1; cases a1
  refine ⟨hcode, l, m, t, file, _, _, _, hp, by simpa using m2, m4, a2, a3.trans (by rw [m3]), ?_⟩
  intro fo hfo
  exact m5 fo ((g.config.destinations m fo).mpr (by rw [m3]; exact hfo))

end Run

theorem DumpSource.Answers.mono {d : DumpSource} {on on' : Nat → Nat → Prop} {frames : Nat → Option (List Frame)} (h : d.Answers on frames)
    (hon : ∀ addr a, on' addr a → on addr a) : d.Answers on' frames where
  nested := fun h1 addr a f h2 h3 => h.nested h1 addr a f h2 (hon _ _ h3)
  flat := fun h1 addr a f h2 h3 => h.flat h1 addr a f h2 (hon _ _ h3)

namespace Run
open Dumper

/-- What the merged text of two inputs says of the functions of one of them. -/
theorem merged_answers {env : Env} {version : Str} {o : Options} {inputs : List Input}
    {mapping : Option (List Mapping.Generator)} {k : Nat}
    (hclear : ∀ x ∈ inputs, x.Clear env mapping (Infos version o)) (hlines : ∀ l ∈ Infos version o, OneLine l)
    (hsize : ∀ x ∈ inputs, ∀ m, x.Dumps env mapping o.inlines m → m.files.getMapping.length ≤ k ∧ m.inlineOrigins.length ≤ k)
    {rules : List Mapping.Rule}
    (x2 : ∀ platform obj p, ((Dumper.cenv env platform mapping obj).src.mapPanics p = true ↔ Mapping.Unreadable env.map rules p) ∧
      (¬ Mapping.Unreadable env.map rules p → ∀ r, Mapping.MapsTo env.map rules p r ↔
        r = ((Dumper.cenv env platform mapping obj).src.mapping p).getD p))
    {x y : Input} (hxm : x ∈ inputs) (hym : y ∈ inputs) (hid : y.obj.debugId = x.obj.debugId) (hopts : x.opts = y.opts ∨ mapping = none)
    (hsum : k + k < M32) {mx my m : ObjectInfo} (dx : x.Dumps env mapping o.inlines mx) (dy : y.Dumps env mapping o.inlines my)
    {tx ty text : Str} {fx fy file : SymFile}
    (px : mx.display (some (Infos version o)) = .ok tx) (qx : readSymFile tx = some fx)
    (py : my.display (some (Infos version o)) = .ok ty) (qy : readSymFile ty = some fy)
    (h3 : m.display (some (Infos version o)) = .ok text) (h4 : readSymFile text = some file)
    {order : List (Str × Nat) → List (Str × Nat)} (hord : IterOrder order)
    (hmerge : ObjectInfo.merge order mx my = .ok m ∨ ObjectInfo.merge order my mx = .ok m) :
    (x.source env mapping rules o.inlines).Answers (fun addr a => ∀ r ∈ fy.symbols, addr ≤ r.rva → r.rva ≤ a →
      r.isPublic = true ∨ (r.rva = addr ∧ fy.symbols.length < fx.symbols.length)) file.framesAt := by
  obtain ⟨memx, Ux, Vx, okx⟩ := (hclear x hxm).ok
  obtain ⟨memy, Uy, Vy, oky⟩ := (hclear y hym).ok
  have rx := (dump_sound (hclear x hxm) hlines dx).2.1
  have ry := (dump_sound (hclear y hym) hlines dy).2.1
  obtain ⟨b1, b2⟩ := hsize x hxm mx dx
  obtain ⟨c1, c2⟩ := hsize y hym my dy
  have ux : DumpedUnder (x.cenv env mapping).src.mapping mx := ⟨_, memx, Ux, Vx, _, _, _, _, _, _, _, okx, rfl, dx⟩
  have uy : DumpedUnder (x.cenv env mapping).src.mapping my := by
    refine ⟨_, memy, Uy, Vy, _, _, _, _, _, _, _, oky, ?_, dy⟩
    rcases hopts with h | h
    · simp only [Input.cenv, h]; rfl
    · subst h; simp only [Input.cenv, ite_self]; rfl
  have hids : mx.debugId = my.debugId := by
    rw [(dump_sound (hclear x hxm) hlines dx).2.2.1, (dump_sound (hclear y hym) hlines dy).2.2.1, hid]
  have key : ∃ L R, (mx = L ∧ my = R ∧ R.symbols.length ≤ L.symbols.length ∨ mx = R ∧ my = L ∧ R.symbols.length ≤ L.symbols.length) ∧
      ∃ a b, Larger a b L R ∧ a.debugId = b.debugId ∧ ObjectInfo.merge order a b = .ok m := by
    rcases hmerge with h | h
    · by_cases hlt : my.symbols.length < mx.symbols.length
      · exact ⟨mx, my, .inl ⟨rfl, rfl, by omega⟩, mx, my, .inl ⟨hlt, rfl, rfl⟩, hids, h⟩
      · exact ⟨my, mx, .inr ⟨rfl, rfl, by omega⟩, mx, my, .inr ⟨by omega, rfl, rfl⟩, hids, h⟩
    · by_cases hlt : mx.symbols.length < my.symbols.length
      · exact ⟨my, mx, .inr ⟨rfl, rfl, by omega⟩, my, mx, .inl ⟨hlt, rfl, rfl⟩, hids.symm, h⟩
      · exact ⟨mx, my, .inl ⟨rfl, rfl, by omega⟩, my, mx, .inr ⟨by omega, rfl, rfl⟩, hids.symm, h⟩
  obtain ⟨L, R, hLR, a, b, hab, hid', hm⟩ := key
  have hb : L.files.getMapping.length + R.files.getMapping.length ≤ M32 ∧ L.inlineOrigins.length + R.inlineOrigins.length < M32 := by
    rcases hLR with ⟨rfl, rfl, _⟩ | ⟨rfl, rfl, _⟩ <;> constructor <;> omega
  obtain ⟨M, g1, g2⟩ := C78_merged_lookup _ order hord a b L R hab hid'
    (by rcases hLR with ⟨rfl, rfl, _⟩ | ⟨rfl, rfl, _⟩ <;> exact .dump _ (by assumption))
    (by rcases hLR with ⟨rfl, rfl, _⟩ | ⟨rfl, rfl, _⟩ <;> assumption) hb.1 hb.2
  rw [hm] at g1; cases g1
  obtain ⟨textM, fileM, text', file', k1, k2, k3, k4, k5⟩ := g2 (some (Infos version o)) mx my
    (by rcases hLR with ⟨rfl, rfl, _⟩ | ⟨rfl, rfl, _⟩ <;> simp) rx ry
  rw [h3] at k1; cases k1
  rw [h4] at k2; cases k2
  rw [px] at k3; cases k3
  rw [qx] at k4; cases k4
  have gx := (dump_sound (hclear x hxm) hlines dx).1
  have gy := (dump_sound (hclear y hym) hlines dy).1
  obtain ⟨ty', fy', n1, n2, _, _, _, _, _, n5, _⟩ := read_display (extra := some (Infos version o)) ry (fun e he =>
    (gy.inlines _ _ (SMap.get?_of_mem gy.sorted he)).2)
  rw [py] at n1; cases n1
  rw [qy] at n2; cases n2
  obtain ⟨tx', fx', o1, o2, _, _, _, _, _, o5, _⟩ := read_display (extra := some (Infos version o)) rx (fun e he =>
    (gx.inlines _ _ (SMap.get?_of_mem gx.sorted he)).2)
  rw [px] at o1; cases o1
  rw [qx] at o2; cases o2
  have hrec : ∀ b s, my.symbols.get? b = some s → symOf s ∈ fy.symbols ∧ (symOf s).rva = b ∧ (symOf s).isPublic = s.isPublic := by
    intro b s hs
    refine ⟨by rw [n5]; exact List.mem_map.mpr ⟨(b, s), SMap.mem_of_get? hs, rfl⟩, ?_, ?_⟩
    · refine Eq.trans ?_ (gy.keyed b s hs).1; unfold symOf; split <;> rfl
    · unfold symOf; split
      · rename_i h; exact h.symm
      · rename_i h; simpa using h
  have hlo : ∀ addr a rec, fx.funcAt a = some rec → rec.rva = addr → addr ≤ a := by
    intro addr a rec hfa hrva
    obtain ⟨addr', s, c1, c2, rfl, c3, c4, c5, c6⟩ := funcAt_some o5 gx.sorted gx.keyed hfa
    omega
  have ans := answers_of okx dx (extra := Infos version o) rx (hclear x hxm).embeds px qx (frames := file.framesAt)
    (on := fun addr a => ∀ r ∈ fy.symbols, addr ≤ r.rva → r.rva ≤ a → r.isPublic = true ∨ (r.rva = addr ∧ fy.symbols.length < fx.symbols.length)) (by
      intro addr a rec s hon hs hsyn hfa hrva hclear
      refine k5 a rec hfa hclear ?_ ?_
      · intro b' y' hb1 hb2 hy'
        obtain ⟨e1, e2, e3⟩ := hrec b' y' hy'
        rcases hon _ e1 (by omega) (by omega) with h | ⟨h, _⟩
        · rw [← e3]; exact h
        · omega
      · intro y' hy'
        obtain ⟨e1, e2, e3⟩ := hrec _ y' hy'
        rcases hon _ e1 (by omega) (by rw [e2, hrva]; exact hlo addr a rec hfa hrva) with h | ⟨_, h⟩
        · rw [e3] at h
          rcases hLR with ⟨e, _⟩ | ⟨e, _⟩
          · exact .inl ⟨e, .inr ⟨s, by rw [← e, hrva]; exact hs, hsyn⟩⟩
          · exact .inr ⟨e, h⟩
        · rw [n5, o5, List.length_map, List.length_map] at h
          rcases hLR with ⟨e, _⟩ | ⟨rfl, rfl, hle⟩
          · exact .inl ⟨e, .inr ⟨s, by rw [← e, hrva]; exact hs, hsyn⟩⟩
          · omega)
  exact ans.prints (prints_mapped okx (x2 x.platform x.obj))

/-- A module made of two inputs is their merge, in one of the two orders. -/
theorem possible_two {env : Env} {mapping : Option (List Mapping.Generator)} {inlines : Bool}
    {tables : List Nat → List (Str × Nat) → List (Str × Nat)} {inputs : List Input} {l : List Nat} {m : ObjectInfo}
    (h : Possible env mapping inlines tables inputs l m) {i j : Nat} {x y : Input} (hij : i ≠ j) (hi : inputs[i]? = some x)
    (hj : inputs[j]? = some y) (hin : ∀ g, g ∈ l ↔ g = i ∨ g = j) {mx my : ObjectInfo} (dx : x.Dumps env mapping inlines mx)
    (dy : y.Dumps env mapping inlines my) :
    ∃ l', ObjectInfo.merge (tables l') mx my = .ok m ∨ ObjectInfo.merge (tables l') my mx = .ok m := by
  have hil : i ∈ l := (hin i).mpr (.inl rfl)
  have hjl : j ∈ l := (hin j).mpr (.inr rfl)
  have hin := fun g => (hin g).mp
  cases h with
  | one g z _ e1 e2 =>
    simp only [List.mem_singleton] at hil hjl
    exact absurd (hil.trans hjl.symm) hij
  | more g l z mz q _ e1 e2 e3 e4 e5 =>
    cases e4 with
    | one g' z' _ e6 e7 =>
      simp only [List.mem_singleton] at e3
      refine ⟨[g, g'], ?_⟩
      rcases hin g (by simp) with rfl | rfl
      · have hg' : g' = j := (hin g' (by simp)).resolve_left (fun h => e3 h.symm)
        subst hg'
        rw [hi] at e1; cases e1
        rw [hj] at e6; cases e6
        cases Res.ok.inj (e2.symm.trans dx)
        cases Res.ok.inj (e7.symm.trans dy)
        exact .inl e5
      · have hg' : g' = i := (hin g' (by simp)).resolve_right (fun h => e3 h.symm)
        subst hg'
        rw [hj] at e1; cases e1
        rw [hi] at e6; cases e6
        cases Res.ok.inj (e2.symm.trans dy)
        cases Res.ok.inj (e7.symm.trans dx)
        exact .inr e5
    | more g' l' z' mz' q' _ e6 e7 e8 e9 e10 =>
      exfalso
      obtain ⟨g'', hg''⟩ := List.exists_mem_of_ne_nil _ e9.ne_nil
      have n1 : g ≠ g' := fun h => e3 (by simp [h])
      have n2 : g ≠ g'' := fun h => e3 (by rw [h]; exact List.mem_cons_of_mem _ hg'')
      have n3 : g' ≠ g'' := fun h => e8 (by rw [h]; exact hg'')
      have k1 := hin g (by simp)
      have k2 := hin g' (by simp)
      have k3 := hin g'' (by simp [hg''])
      omega

/-- What the text made of two inputs says of the functions of both. -/
theorem two_answers {env : Env} {version : Str} {o : Options} {inputs : List Input} {orders : Orders}
    {mapping : Option (List Mapping.Generator)} {k : Nat} {rules : List Mapping.Rule}
    (hclear : ∀ x ∈ inputs, x.Clear env mapping (Infos version o)) (hlines : ∀ l ∈ Infos version o, OneLine l)
    (hsize : ∀ x ∈ inputs, ∀ m, x.Dumps env mapping o.inlines m → m.files.getMapping.length ≤ k ∧ m.inlineOrigins.length ≤ k)
    (hbelow : k * inputs.length < M32) (hhash : ∀ l, IterOrder (orders.tables l))
    (hdump : ∀ x ∈ inputs, ∃ m text file, x.Dumps env mapping o.inlines m ∧ m.display (some (Infos version o)) = .ok text ∧
      readSymFile text = some file ∧ (x.source env mapping rules o.inlines).Describes (Infos version o) file)
    (hmaps : ∀ platform obj p, ((Dumper.cenv env platform mapping obj).src.mapPanics p = true ↔ Mapping.Unreadable env.map rules p) ∧
      (¬ Mapping.Unreadable env.map rules p → ∀ r, Mapping.MapsTo env.map rules p r ↔
        r = ((Dumper.cenv env platform mapping obj).src.mapping p).getD p))
    {i j : Nat} {x y : Input} (hij : i ≠ j) (hi : inputs[i]? = some x) (hj : inputs[j]? = some y) (hid : y.obj.debugId = x.obj.debugId)
    (hopts : x.opts = y.opts ∨ mapping = none) {l : List Nat} {m : ObjectInfo} {text : Str} {file : SymFile}
    (h1 : Possible env mapping o.inlines orders.tables inputs l m) (hin : ∀ g, g ∈ l ↔ g = i ∨ g = j)
    (h3 : m.display (some (Infos version o)) = .ok text) (h4 : readSymFile text = some file) :
    ∃ fx fy, (x.source env mapping rules o.inlines).Describes (Infos version o) fx ∧
      (y.source env mapping rules o.inlines).Describes (Infos version o) fy ∧
      (x.source env mapping rules o.inlines).Answers (fun addr a => ∀ r ∈ fy.symbols, addr ≤ r.rva → r.rva ≤ a →
        r.isPublic = true ∨ (r.rva = addr ∧ fy.symbols.length < fx.symbols.length)) file.framesAt ∧
      (y.source env mapping rules o.inlines).Answers (fun addr a => ∀ r ∈ fx.symbols, addr ≤ r.rva → r.rva ≤ a →
        r.isPublic = true ∨ (r.rva = addr ∧ fx.symbols.length < fy.symbols.length)) file.framesAt := by
  have hxm := List.mem_of_getElem? hi
  have hym := List.mem_of_getElem? hj
  obtain ⟨mx, tx, fx, dx, px, qx, sx⟩ := hdump x hxm
  obtain ⟨my, ty, fy, dy, py, qy, sy⟩ := hdump y hym
  have hsum : k + k < M32 := by
    have h2 : 2 ≤ inputs.length := by
      have a := (List.getElem?_eq_some_iff.mp hi).1
      have b := (List.getElem?_eq_some_iff.mp hj).1
      omega
    have := Nat.lt_of_le_of_lt (Nat.mul_le_mul_left k h2) hbelow
    omega
  obtain ⟨l', hmerge⟩ := possible_two h1 hij hi hj hin dx dy
  exact ⟨fx, fy, sx, sy, merged_answers hclear hlines hsize hmaps hxm hym hid hopts hsum dx dy px qx py qy h3 h4 (hhash l') hmerge,
    merged_answers hclear hlines hsize hmaps hym hxm hid.symm (hopts.imp Eq.symm id) hsum dy dx py qy px qx h3 h4 (hhash l') hmerge.symm⟩

/-- **C85, two inputs with the same debug id.** Their place in the store holds one text for both.  Looking up an address of a function of one
of them finds what the debug information of that input says, unless the symbol file of the other one has a FUNC record from the start of
the function to the address; one with the very same start does not count if the other one has fewer records.  (The path mappings must be
used for both or for none.) -/
theorem C85_merged (env : Env) (version : Str) (cpus : Nat) (o : Options) (inputs : List Input) (w : Cache.World) (orders : Orders)
    (mapping : Option (List Mapping.Generator)) (arch : Str) (k : Nat) (dir : Str)
    (hrun : Several env version o inputs w orders mapping arch k dir) (out : Output.World) :
    ∃ rules, Mapping.Configured env.map o.mappingVar o.mappingSrc o.mappingDest o.mappingFile rules ∧
      ∀ code out', Exits env version cpus o w orders out code out' →
        ∀ (i j : Nat) (x y : Input), i ≠ j → inputs[i]? = some x → inputs[j]? = some y → y.obj.debugId = x.obj.debugId →
          (∀ (g : Nat) (z : Input), inputs[g]? = some z → z.obj.debugId = x.obj.debugId → g = i ∨ g = j) →
          (x.opts = y.opts ∨ mapping = none) →
          ∃ text file p os cpu name fx fy, readSymFile text = some file ∧ file.modules = [(os, cpu, x.obj.debugId, name)] ∧
            InStore dir name x.obj.debugId p ∧ out'.files p = some (Utf8.encode text) ∧
            (x.source env mapping rules o.inlines).Describes (Infos version o) fx ∧
            (y.source env mapping rules o.inlines).Describes (Infos version o) fy ∧
            (x.source env mapping rules o.inlines).Answers (fun addr a => ∀ r ∈ fy.symbols, addr ≤ r.rva → r.rva ≤ a →
              r.isPublic = true ∨ (r.rva = addr ∧ fy.symbols.length < fx.symbols.length)) file.framesAt ∧
            (y.source env mapping rules o.inlines).Answers (fun addr a => ∀ r ∈ fx.symbols, addr ≤ r.rva → r.rva ≤ a →
              r.isPublic = true ∨ (r.rva = addr ∧ fx.symbols.length < fy.symbols.length)) file.framesAt := by
  obtain ⟨rules0, _, hmain⟩ := C85_several env version cpus o inputs w orders mapping arch k dir hrun out
  obtain ⟨c, rules, g⟩ := hrun.goes cpus out
  refine ⟨rules, g.configured, ?_⟩
  intro code out' hex i j x y hij hi hj hid hothers hopts
  obtain ⟨_, hmain⟩ := hmain code out' hex
  obtain ⟨l, m, text, file, p, os, cpu, name, h1, h2, h3, h4, h5, h6, h7, _⟩ := hmain i x hi
  obtain ⟨fx, fy, k1, k2, k3, k4⟩ := two_answers (fun x hm => (hrun.each w .start x hm).clear) hrun.lines hrun.size hrun.below hrun.hashes g.dump g.maps hij hi hj hid hopts h1 (by
    intro b
    rw [h2 b]
    constructor
    · rintro ⟨z, e1, e2⟩; exact hothers b z e1 e2
    · rintro (rfl | rfl)
      · exact ⟨x, hi, rfl⟩
      · exact ⟨y, hj, hid⟩) h3 h4
  exact ⟨text, file, p, os, cpu, name, fx, fy, h4, h5, h6, h7, k1, k2, k3, k4⟩

/-- There is a function of the input at the address, or an entry of the exception table of a PE. -/
def Input.StartsAt (x : Input) (b : Nat) : Prop :=
  funcsAt x.fs b ≠ [] ∨ (x.obj.format = .pe ∧ ∃ es e, x.obj.exceptions = some es ∧ e ∈ es ∧ e.begin = b)

/-- A FUNC record of a symbol file that describes an input stands for a function of it. -/
theorem startsAt_of_record {env : Env} {mapping : Option (List Mapping.Generator)} {rules : List Mapping.Rule} {inlines : Bool} {x : Input}
    {extra : List Str} {file : SymFile} (h : (x.source env mapping rules inlines).Describes extra file) {r : RSym} (hr : r ∈ file.symbols)
    (hp : r.isPublic = false) : x.StartsAt r.rva := by
  obtain ⟨m, h1, h2, _⟩ := h.symbols
  obtain ⟨s, h3, h4⟩ := h2 r hr
  rw [h4.isPublic] at hp
  cases h1.sources _ s h3 with
  | function f rest own e => exact .inl (by rw [show funcsAt x.fs r.rva = f :: rest from e]; simp)
  | entry es e h5 h6 h7 h8 => exact .inr ⟨h5, es, e, h6, h7, h8⟩
  | pub before p after _ _ _ _ e => rw [e] at hp; cases hp
  | «section» before h after _ _ _ _ e => rw [e] at hp; cases hp
  | stop _ _ e => rw [e] at hp; cases hp

/-- **C85, two inputs with the same debug id, by their debug information.** Their place in the store holds one text for both.  Looking up
an address of a function of either input finds what its debug information says, unless a function of the other one starts from the start
of the function to the address. -/
theorem C85_disjoint (env : Env) (version : Str) (cpus : Nat) (o : Options) (inputs : List Input) (w : Cache.World) (orders : Orders)
    (mapping : Option (List Mapping.Generator)) (arch : Str) (k : Nat) (dir : Str)
    (hrun : Several env version o inputs w orders mapping arch k dir) (out : Output.World) :
    ∃ rules, Mapping.Configured env.map o.mappingVar o.mappingSrc o.mappingDest o.mappingFile rules ∧
      ∀ code out', Exits env version cpus o w orders out code out' →
        ∀ (i j : Nat) (x y : Input), i ≠ j → inputs[i]? = some x → inputs[j]? = some y → y.obj.debugId = x.obj.debugId →
          (∀ (g : Nat) (z : Input), inputs[g]? = some z → z.obj.debugId = x.obj.debugId → g = i ∨ g = j) →
          (x.opts = y.opts ∨ mapping = none) →
          ∃ text file p os cpu name, readSymFile text = some file ∧ file.modules = [(os, cpu, x.obj.debugId, name)] ∧
            InStore dir name x.obj.debugId p ∧ out'.files p = some (Utf8.encode text) ∧
            (x.source env mapping rules o.inlines).Answers (fun addr a => ∀ b, addr ≤ b → b ≤ a → ¬ y.StartsAt b) file.framesAt ∧
            (y.source env mapping rules o.inlines).Answers (fun addr a => ∀ b, addr ≤ b → b ≤ a → ¬ x.StartsAt b) file.framesAt := by
  obtain ⟨rules, h1, h2⟩ := C85_merged env version cpus o inputs w orders mapping arch k dir hrun out
  refine ⟨rules, h1, ?_⟩
  intro code out' hex i j x y hij hi hj hid hothers hopts
  obtain ⟨text, file, p, os, cpu, name, fx, fy, k1, k2, k3, k4, k5, k6, k7, k8⟩ := h2 code out' hex i j x y hij hi hj hid hothers hopts
  refine ⟨text, file, p, os, cpu, name, k1, k2, k3, k4, k7.mono ?_, k8.mono ?_⟩
  · intro addr a h r hr h1 h2
    cases hp : r.isPublic with
    | true => exact .inl rfl
    | false => exact absurd (startsAt_of_record k6 hr hp) (h _ h1 h2)
  · intro addr a h r hr h1 h2
    cases hp : r.isPublic with
    | true => exact .inl rfl
    | false => exact absurd (startsAt_of_record k5 hr hp) (h _ h1 h2)

/-- **C85, a run on two inputs with one debug id** (a stripped file and its debug file, say), whatever the destinations: an output file, the
standard output, the store.  The program ends with status 0 if it ends, and each destination holds one text for both inputs.  Looking up an
address of a function of either input finds what its debug information says, unless a function of the other one starts from the start of
the function to the address. -/
theorem C85_pair (env : Env) (version : Str) (cpus : Nat) (o : Options) (x y : Input) (w : Cache.World) (orders : Orders)
    (mapping : Option (List Mapping.Generator)) (arch : Str) (k : Nat)
    (hrun : Workable env version o [x, y] w orders mapping arch k) (hid : y.obj.debugId = x.obj.debugId)
    (hopts : x.opts = y.opts ∨ mapping = none) (out : Output.World) :
    ∃ rules, Mapping.Configured env.map o.mappingVar o.mappingSrc o.mappingDest o.mappingFile rules ∧
      ∀ code out', Exits env version cpus o w orders out code out' → code = 0 ∧
        ∃ text file os cpu name, readSymFile text = some file ∧ file.modules = [(os, cpu, x.obj.debugId, name)] ∧
          (∀ fo, Destination o name x.obj.debugId fo → Output.Holds out out' fo (Utf8.encode text)) ∧
          (x.source env mapping rules o.inlines).Answers (fun addr a => ∀ b, addr ≤ b → b ≤ a → ¬ y.StartsAt b) file.framesAt ∧
          (y.source env mapping rules o.inlines).Answers (fun addr a => ∀ b, addr ≤ b → b ≤ a → ¬ x.StartsAt b) file.framesAt := by
  obtain ⟨c, rules, g⟩ := hrun.goes cpus out
  refine ⟨rules, g.configured, ?_⟩
  intro code out' hex
  obtain ⟨hcode, l, m, text, file, os, cpu, name, h1, h2, h3, h4, h5, h6⟩ := C85_one_id env version cpus o [x, y] w orders mapping arch k hrun
    (by simp) x.obj.debugId (by
      intro z hz
      simp only [List.mem_cons, List.not_mem_nil, or_false] at hz
      rcases hz with rfl | rfl
      · rfl
      · exact hid) out code out' hex
  obtain ⟨fx, fy, k5, k6, k7, k8⟩ := two_answers (i := 0) (j := 1) (fun x hm => (hrun.each w .start x hm).clear) hrun.lines hrun.size hrun.below hrun.hashes g.dump g.maps (by decide) rfl rfl hid hopts h1 (by
    intro b
    rw [h2 b]
    simp only [List.length_cons, List.length_nil]
    omega) h3 h4
  refine ⟨hcode, text, file, os, cpu, name, h4, h5, h6, k7.mono ?_, k8.mono ?_⟩
  · intro addr a h r hr h1 h2
    cases hp : r.isPublic with
    | true => exact .inl rfl
    | false => exact absurd (startsAt_of_record k6 hr hp) (h _ h1 h2)
  · intro addr a h r hr h1 h2
    cases hp : r.isPublic with
    | true => exact .inl rfl
    | false => exact absurd (startsAt_of_record k5 hr hp) (h _ h1 h2)

end Run
end DumpSyms
