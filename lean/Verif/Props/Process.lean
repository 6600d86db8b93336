import Verif.Props.Described
import Verif.Props.RunSamples
/-!
# C84: a run of the program on one file, end to end
-/
namespace DumpSyms
open ObjectInfo Collector Reader

/-- Another way to say which paths are printed. -/
theorem DumpSource.Answers.prints {d : DumpSource} {on : Nat → Nat → Prop} {frames : Nat → Option (List Frame)} (h : d.Answers on frames)
    {prints : ByteSlice → FileInfo → Str → Prop}
    (hp : ∀ f, some f ∈ d.fs → ∀ c r, f.Refers c r → ∀ q, d.prints c r q ↔ prints c r q) :
    ({ d with prints := prints } : DumpSource).Answers on frames := by
  have ht : ∀ path nameOf, ({ d with prints := prints } : DumpSource).Texts path nameOf → d.Texts path nameOf := fun path nameOf t =>
    ⟨fun f hf c r hr q hq => t.path f hf c r hr q ((hp f hf c r hr q).mp hq), t.nameOf⟩
  have hf : ∀ addr a f, ({ d with prints := prints } : DumpSource).FoundAt addr a f → d.FoundAt addr a f :=
    fun _ _ _ t => ⟨t.first, t.stop, t.lo, t.hi, t.alone⟩
  refine ⟨?_, ?_⟩
  · intro hi addr a f hfo hon hwf hgap hext own hown path nameOf htx
    exact h.nested hi addr a f (hf _ _ _ hfo) hon hwf hgap hext own hown path nameOf (ht _ _ htx)
  · intro hi addr a f hfo hon hs hb own hown path nameOf htx
    exact h.flat hi addr a f (hf _ _ _ hfo) hon hs hb own hown path nameOf (ht _ _ htx)

theorem DumpSource.Describes.prints {d : DumpSource} {extra : List Str} {file : SymFile} (h : d.Describes extra file)
    {prints : ByteSlice → FileInfo → Str → Prop}
    (hp : ∀ f, some f ∈ d.fs → ∀ c r, f.Refers c r → ∀ q, d.prints c r q ↔ prints c r q) :
    ({ d with prints := prints } : DumpSource).Describes extra file := by
  refine ⟨h.module, h.codeId, h.infos, ?_, h.ascending, ?_, h.answers.prints hp, h.stack⟩
  · intro i q hq
    obtain ⟨f, c, r, e1, e2, e3⟩ := h.files i q hq
    exact ⟨f, c, r, e1, e2, (hp f e1 c r e2 q).mp e3⟩
  · obtain ⟨m, e1, e2⟩ := h.symbols
    exact ⟨m, ⟨e1.sources, e1.functions, e1.entries, e1.publics, e1.sections, e1.stop⟩, e2⟩

namespace Run
open Dumper

/-- Where the options say the symbols of a module go: standard output (also if nothing is said), a file, the store. -/
def Destination (o : Options) (name id : Str) (fo : Output.FileOutput) : Prop :=
  (o.output = none ∧ o.store = none ∧ fo = .stdout) ∨ (o.output = some ['-'] ∧ fo = .stdout) ∨
  (∃ f, o.output = some f ∧ f ≠ ['-'] ∧ fo = .path f) ∨
  ∃ d p, o.store = some d ∧ d ≠ [] ∧ InStore d name id p ∧ fo = .path p

/-- The destinations can be made and take the text, which is written in parts. -/
structure Takes (io : Output.IoEnv) (text : Str) : Prop where
  parts : (io.chunks text).flatten = Utf8.encode text
  mkdirs : ∀ d, io.mkdirs d = true
  create : ∀ p, io.create p = true
  room : ∀ fo, (Utf8.encode text).length ≤ io.room fo

theorem contents_of {env : Env} {c c' : Config} (h1 : c.debugId = c'.debugId) (h2 : c.codeId = c'.codeId)
    (h3 : c.symbolServer = c'.symbolServer) {path filename : Str} {w : Cache.World} {b : Bytes} {w1 : Cache.World}
    (h : Contents env c path filename w b w1) : Contents env c' path filename w b w1 := by
  cases h with
  | byPath _ e1 e2 e3 => exact .byPath _ (h1 ▸ e1) (h2 ▸ e2) e3
  | byId id servers _ _ e1 e2 e3 => exact .byId id servers _ _ (by rw [← h1, ← h2]; exact e1) (h3 ▸ e2) e3

theorem cenv_records {env : Env} {platform : Platform} {mapping : Option (List Mapping.Generator)} {o : ObjInput} {c : ByteSlice} {r : FileInfo}
    {p : Str} : (cenv env platform mapping o).src.Records c r p ↔
      RecordedPath platform (OnHost env.os platform ∧ ¬ (o.format = .pe ∧ o.hasDebugInfo = true)) env.canon c r p := by
  have hhost : platform.isTarget env.os = true ↔ OnHost env.os platform := by
    cases env.os <;> cases platform <;> simp [Platform.isTarget, OnHost]
  have hcan : ((cenv env platform mapping o).src.canonicalize = true) =
      (OnHost env.os platform ∧ ¬ (o.format = .pe ∧ o.hasDebugInfo = true)) := by
    apply propext
    simp only [cenv, ObjectInfo.canonicalize]
    split
    · rename_i h; simp [h]
    · rename_i h; rw [hhost]; exact ⟨fun x => ⟨x, h⟩, fun x => x.1⟩
  rw [← hcan]
  exact Iff.rfl

/-- What is printed as INFO lines when the options are usable. -/
theorem extra_ok {version : Str} {o : Options} (hinfo : ∀ v ∈ o.extraInfo.getD [], Main.InfoLine v) :
    Main.getExtraInfo version o.extraInfo o.noGenerator = .ok (Infos version o) := by
  unfold Main.getExtraInfo Infos
  cases he : o.extraInfo with
  | none => cases o.noGenerator <;> rfl
  | some vs =>
    rw [he] at hinfo
    simp only [Option.getD_some] at hinfo ⊢
    rw [Main.checkedInfos_ok hinfo]
    cases o.noGenerator <;> simp

/-- The paths printed, in terms of the rules configured. -/
theorem prints_mapped {env : Env} {mapping : Option (List Mapping.Generator)} {rules : List Mapping.Rule} {platform : Platform} {obj : ObjInput}
    {opts : Bool} {mem : Mem} {U : List Str} {V : List Name} {fs : List (Option Func)}
    (hok : ObjOk (cenv env platform (if opts then mapping else none) obj) mem U V platform obj fs)
    (hx : ∀ p, ((cenv env platform mapping obj).src.mapPanics p = true ↔ Mapping.Unreadable env.map rules p) ∧
      (¬ Mapping.Unreadable env.map rules p → ∀ q, Mapping.MapsTo env.map rules p q ↔ q = ((cenv env platform mapping obj).src.mapping p).getD p))
    (f : Func) (hf : some f ∈ fs) (cdir : ByteSlice) (r : FileInfo) (hr : f.Refers cdir r) (q : Str) :
    (∃ p, (cenv env platform (if opts then mapping else none) obj).src.Records cdir r p ∧
      q = ((cenv env platform (if opts then mapping else none) obj).src.mapping p).getD p) ↔
    ∃ p, RecordedPath platform (OnHost env.os platform ∧ ¬ (obj.format = .pe ∧ obj.hasDebugInfo = true)) env.canon cdir r p ∧
      Mapping.MapsTo env.map (if opts then rules else []) p q := by
  obtain ⟨_, _, u2⟩ := refOk_iff.mp ((hok.input.funcs f hf).refers hr)
  have key : ∀ p, (cenv env platform (if opts then mapping else none) obj).src.Records cdir r p →
      (q = ((cenv env platform (if opts then mapping else none) obj).src.mapping p).getD p ↔
        Mapping.MapsTo env.map (if opts then rules else []) p q) := by
    intro p hp
    cases records_iff.mp hp
    cases opts with
    | true =>
      refine ((hx _).2 (fun h => ?_) q).symm
      have := (hx _).1.mpr h
      cases this.symm.trans u2
    | false =>
      show q = _ ↔ Mapping.MapsTo env.map [] _ q
      have : ∀ p, Mapping.MapsTo env.map [] p q ↔ q = p := by
        intro p
        constructor
        · rintro (⟨pre, rule, post, h, _⟩ | ⟨_, h⟩)
          · simp at h
          · exact h
        · intro h; exact .inr ⟨by simp, h⟩
      rw [this]
      rfl
  constructor
  · rintro ⟨p, h1, h2⟩
    exact ⟨p, cenv_records.mp h1, (key p h1).mp h2⟩
  · rintro ⟨p, h1, h2⟩
    exact ⟨p, cenv_records.mpr h1, (key p (cenv_records.mpr h1)).mpr h2⟩

/-- **C84.** The program run on one file, from the options to the frames a user of the symbol file gets.  `b` are the contents found for the
file (C81), `obj`, `pe` and the names what they are dumped from, `rules` the path mappings configured (C79).  If the debug information can be
read and its texts are on one line, the module has a text that can be read and describes all this; and if the destinations take it, and
unwind information is there when `--check-cfi` asks for it, the program can only end with status 0, and each destination the options
ask for holds that text. -/
theorem C84_process (env : Env) (hsha : ∀ d, ∀ b ∈ env.map.sha512 d, b < 256) (hord : ∀ l, (env.map.order l).Perm l)
    (version : Str) (cpus : Nat) (o : Options) (hla : o.listArch = false) (pre filename : Str) (hdir : DirPart pre)
    (hname : ProperComp filename) (hfile : o.filenames = [pre ++ filename])
    (hid : ∀ id, o.debugId = some id ∨ o.codeId = some id → ProperComp id)
    (hinfo : ∀ v ∈ o.extraInfo.getD [], Main.InfoLine v) (hlines : ∀ l ∈ Infos version o, OneLine l)
    (w : Cache.World) (hsane : Sane env w.disk) (orders : Orders) (out : Output.World)
    (config : Config) (hcfg : Configures cpus o config)
    (hpe : ∀ b w1, Contents env config (pre ++ filename) filename w b w1 → SanePe env b)
    (b : Bytes) (w1 : Cache.World) (hcont : Contents env config (pre ++ filename) filename w b w1)
    (mapping : Option (List Mapping.Generator))
    (hmap : Mapping.new env.map o.mappingVar o.mappingSrc o.mappingDest o.mappingFile = .ok mapping)
    (arch : Str) (harch : env.parsers.arch o.arch = some arch)
    (obj : ObjInput) (name : Str) (pe : Option ObjInput) (peName : Option Str) (platform : Platform) (opts : Bool) (w' : Cache.World)
    (hfrom : DumpedFrom env b (pre ++ filename) filename arch o.symbolServer w1 obj name pe peName platform opts w')
    (mem : Mem) (U : List Str) (V : List Name) (fs : List (Option Func))
    (hok : ObjOk (cenv env platform (if opts then mapping else none) obj) mem U V platform obj fs)
    (hplain : PlainTexts (cenv env platform (if opts then mapping else none) obj) platform obj fs name pe peName)
    (hcode : obj.codeId = none → (∀ q, pe = some q → q.codeId = none) → ∀ l, (Infos version o).head? = some l → ¬ str% "CODE_ID " <+: l)
    (ps : List Public) (hps : obj.Embeds ps) :
    ∃ rules text file last, Mapping.Configured env.map o.mappingVar o.mappingSrc o.mappingDest o.mappingFile rules ∧
      (∃ m, ObjectInfo.fromObject (cenv env platform (if opts then mapping else none) obj) (o.inlines && opts) platform obj name pe peName = .ok m ∧
        m.display (some (Infos version o)) = .ok text) ∧ readSymFile text = some file ∧
      DumpSource.Describes
        { env := cenv env platform (if opts then mapping else none) obj, platform, main := obj, fs, publics := obj.publics ++ ps, name, pe, peName,
          inlines := o.inlines && opts
          prints := fun c r q => ∃ p,
            RecordedPath platform (OnHost env.os platform ∧ ¬ (obj.format = .pe ∧ obj.hasDebugInfo = true)) env.canon c r p ∧
            Mapping.MapsTo env.map (if opts then rules else []) p q } (Infos version o) file ∧
      file.modules = [(osName platform, obj.arch, obj.debugId, last)] ∧
      (Takes env.io text → (o.checkCfi = true → file.stack ≠ []) →
        ∃ out', (∀ code out'', Exits env version cpus o w orders out code out'' ↔ code = 0 ∧ out'' = out') ∧
          ∀ fo, Destination o last obj.debugId fo → Output.Holds out out' fo (Utf8.encode text)) := by
  obtain ⟨c, hact, hc⟩ := (C64_config cpus o).2 hla
  obtain ⟨r1, r2, r3⟩ := hc.search
  obtain ⟨q1, q2, q3⟩ := hcfg.search
  obtain ⟨m1, m2, m3, m4⟩ := hc.mapping
  obtain ⟨n1, n2⟩ := hc.reading
  have hcont' : ∀ b w1, Contents env c (pre ++ filename) filename w b w1 ↔ Contents env config (pre ++ filename) filename w b w1 :=
    fun b w1 => ⟨contents_of (by rw [r2, q2]) (by rw [r3, q3]) (by rw [r1, q1]), contents_of (by rw [r2, q2]) (by rw [r3, q3]) (by rw [r1, q1])⟩
  obtain ⟨rules, x1, x2⟩ := C79_rules env hsha hord _ _ _ _ mapping hmap
  obtain ⟨m, text, file, y1, y2, y3, y4⟩ := C84_described _ mem U V platform obj fs hok (o.inlines && opts) name pe peName hplain
    (Infos version o) hlines hcode ps hps
  obtain ⟨last, z1, z2⟩ := y4.module
  refine ⟨rules, text, file, last, x1, ⟨m, y1, y2⟩, y3, ?_, z2, ?_⟩
  · exact y4.prints (prints_mapped hok (x2 platform obj))
  · intro ht hcfi
    have hread : readSingle env c (pre ++ filename) w = (.ok m, w') := by
      refine (C81_run env c w w' hdir hname hsane (by rw [r2, r3]; exact hid) (fun b w1 h => hpe b w1 ((hcont' b w1).mp h)) m).mpr ?_
      refine ⟨b, w1, mapping, arch, obj, name, pe, peName, platform, opts, (hcont' b w1).mpr hcont, ?_, ?_, ?_, ?_⟩
      · rw [m1, m2, m3, m4]; exact hmap
      · rw [n1]; exact harch
      · rw [r1]; exact hfrom
      · rw [n2]; exact y1
    obtain ⟨k1, k2, k3, k4, k5, k6, k7⟩ := fromObject_header y1
    have hstack : file.stack ≠ [] → m.stack ≠ [] := by
      intro h h'
      have e := y4.stack
      have e' : ((pe.bind (·.unwind)).or obj.unwind).getD [] = [] := by
        rw [k6] at h'
        unfold getStackInfo at h'
        generalize pe.bind (·.unwind) = x at h'
        cases x <;> exact h'
      cases hs : file.stack with
      | nil => exact h hs
      | cons x xs =>
        rw [hs, List.flatMap_cons] at e
        have := e.trans e'
        simp at this
    obtain ⟨v1, v2⟩ := C62_complete env (some (Infos version o)) c (pre ++ filename) w out (by rw [hread]) (by
      rw [hc.checkCfi]; intro h; exact hstack (hcfi h)) y2 ht.parts ht.mkdirs ht.create ht.room
    refine ⟨(singleFile env (some (Infos version o)) c (pre ++ filename) w out).2.2, ?_, ?_⟩
    · have hextra := extra_ok (version := version) hinfo
      intro code out''
      constructor
      · intro h
        cases h with
        | badInfo h => exact absurd hextra (h _)
        | acts extra r out' h ha =>
          rw [hextra] at h; cases h
          rw [hact] at ha
          cases ha with
          | several config ws r out' hlen hw hs => rw [hfile] at hlen; exact absurd rfl hlen
          | single config g hg =>
            rw [hfile] at hg; cases hg
            rw [v1]; exact ⟨rfl, rfl⟩
      · rintro ⟨rfl, rfl⟩
        have := Exits.acts (env := env) (version := version) (cpus := cpus) (o := o) (w := w) (orders := orders) (out := out) _ _ _ hextra
          (hact ▸ Acts.single c (pre ++ filename) hfile)
        rw [v1] at this
        exact this
    · intro fo hfo
      refine v2 fo ((hc.destinations m fo).mpr ?_)
      have e1 : last = m.fileName := z1.unique (sourceOf_last y1)
      rw [← e1, k3]
      exact hfo

/-! ## Example -/

/-- `dump_syms -o - -s /s -i --check-cfi --extra-info "X 1" /d/a`. -/
def runOptions : Options where
  filenames := [str% "/d/" ++ str% "a"]
  output := some (str% "-")
  store := some (str% "/s")
  debugId := none
  codeId := none
  symbolServer := none
  checkCfi := true
  arch := str% "x86_64"
  listArch := false
  numJobs := str% "2"
  mappingVar := none
  mappingSrc := none
  mappingDest := none
  mappingFile := none
  inlines := true
  extraInfo := some [str% "X 1"]
  noGenerator := false

def exElf : ObjInput := exObj .elf (str% "E1") (str% "x86_64") (some (str% "dir/lib.so"))

theorem exElf_plain : PlainTexts (cenv exEnv .linux none exElf) .linux exElf [some mB1] (str% "a") none none where
  arch := by unfold Unbroken; decide
  debugId := by unfold Unbroken; decide
  codeId := by rintro c (h | ⟨q, h, _⟩) <;> cases h
  name := by unfold OneLine; decide
  ownName := by intro n h; cases h; unfold OneLine; decide
  peName := by intro p h; cases h
  paths := by
    intro f hf c i h p hp
    obtain ⟨_, h2, _⟩ := refOk_iff.mp (((exElf_ok _ rfl).input.funcs f hf).refers h)
    cases records_iff.mp hp
    have key : ∀ q ∈ sampleU, '\n' ∉ ((cenv exEnv .linux none exElf).src.mapping q).getD q := by decide
    exact key _ h2
  functions := by
    intro f hf t h
    simp only [List.mem_cons, Option.some.injEq, List.not_mem_nil, or_false] at hf
    subst hf
    cases (shown_demangle (cenv exEnv .linux none exElf) _ _).mp h
    unfold OneLine; decide
  publics := by
    intro ps hps p hp t k ht
    rcases hps with rfl | hps
    · cases hp
    · obtain ⟨r, h1, h2⟩ := (embeds_iff (exElf_ok _ rfl).embedded ps).mp hps
      cases h1; subst h2; cases hp
  sections := by intro hs h; cases h
  unwind := by
    rintro t (h | ⟨q, h, _⟩) <;> cases h
    exact ⟨[str% "CFI 1"], rfl, by intro l hl; simp at hl; subst hl; unfold OneLine; decide⟩

/-- C84 applied: the run ends with status 0, the store and standard output hold a text in which the address `0x2004` is in line 20 of `b`. -/
example : ∃ text file out', (∀ code out'', Exits exEnv (str% "1.0") 4 runOptions (exWorld [(str% "/d/a", .file [1] true)]) exOrders
      Output.emptyWorld code out'' ↔ code = 0 ∧ out'' = out') ∧
    Output.Holds Output.emptyWorld out' .stdout (Utf8.encode text) ∧
    Output.Holds Output.emptyWorld out' (.path (str% "/s/lib.so/E1/lib.so.sym")) (Utf8.encode text) ∧
    readSymFile text = some file ∧ file.modules = [(str% "Linux", str% "x86_64", str% "E1", str% "lib.so")] ∧
    file.extra = [str% "X 1", str% "GENERATOR mozilla/dump_syms 1.0"] ∧
    file.framesAt 0x2004 = some [⟨str% "b()", some (str% "/c/y.c"), 20⟩] := by
  obtain ⟨c, hact, hc⟩ := (C64_config 4 runOptions).2 rfl
  have hnone : ∀ ps, exElf.Embeds ps ↔ ps = [] := by
    intro ps
    have hin : exElf.EmbeddedInside := (exElf_ok _ rfl).embedded
    rw [embeds_iff hin]
    constructor
    · rintro ⟨r, h1, h2⟩; cases h1; exact h2
    · rintro rfl; exact ⟨none, rfl, rfl⟩
  have hdisk : ∀ q n, (exWorld [(str% "/d/a", .file [1] true)]).disk q = some n → q = str% "/d/a" ∧ n = .file [1] true := by
    intro q n h
    simp only [exWorld, WinUtils.diskOf, List.lookup] at h
    split at h
    · rename_i e; cases h; exact ⟨by simpa using e, rfl⟩
    · cases h
  have hsane : Sane exEnv (exWorld [(str% "/d/a", .file [1] true)]).disk := by
    refine ⟨?_, (fun u st raw p h => by cases h), (fun js j h => by cases h), .inr ⟨str% "/", str% "w", rfl, .inr rfl, by unfold ProperComp; decide⟩⟩
    intro q es h
    cases (hdisk _ _ h).2
  have hpath : ∀ b, PathHolds exEnv.net.cab (exWorld [(str% "/d/a", .file [1] true)]).disk (str% "/d/" ++ str% "a") b ↔ b = [1] := by
    intro b
    constructor
    · rintro ⟨p, q, n, raw, h1, _, _, _, h2⟩
      have : raw = [1] := by
        cases h1 with
        | file _ h => cases (hdisk _ _ h).2; rfl
        | bundle es e _ h => cases (hdisk _ _ h).2
      cases h2 with
      | plain => exact this
      | packed _ _ _ _ _ _ _ h => cases h
    · rintro rfl
      exact ⟨_, str% "/d/", str% "a", _, .file [1] rfl, rfl, .inr rfl, by unfold ProperComp; decide, .plain rfl⟩
  obtain ⟨rules, text, file, last, h1, ⟨m, h2, h3⟩, h4, h5, h6, h7⟩ := C84_process exEnv (by
      intro d b hb
      obtain ⟨x, _, rfl⟩ := List.mem_map.mp hb
      omega) (fun l => List.reverse_perm l) (str% "1.0") 4 runOptions rfl (str% "/d/") (str% "a") (.inr rfl) (by unfold ProperComp; decide) rfl
    (by rintro id (h | h) <;> cases h)
    (by intro v hv; simp [runOptions] at hv; subst hv; exact ⟨str% "X", str% "1", rfl, by decide, by decide⟩)
    (by intro l hl; unfold OneLine; revert l; decide)
    (exWorld [(str% "/d/a", .file [1] true)]) hsane exOrders Output.emptyWorld c hc
    (by
      intro b w1 h pe rec hb
      cases h with
      | byPath _ _ _ h => cases (hpath b).mp h; cases hb
      | byId id _ _ _ h =>
        rw [hc.search.2.1, hc.search.2.2] at h
        rcases h with h | ⟨_, h⟩ <;> cases h)
    [1] _ (.byPath _ hc.search.2.1 hc.search.2.2 ((hpath [1]).mpr rfl)) none rfl (str% "x86_64") rfl exElf (str% "a") none none .linux true _
    (.elf _ rfl rfl) sampleMem sampleU sampleV [some mB1] (exElf_ok _ rfl) exElf_plain (by intro _ _ l hl; cases hl; decide) []
    ((hnone []).mpr rfl)
  have hlast : last = str% "lib.so" := by
    obtain ⟨last', e1, e2⟩ := h5.module
    rw [h6] at e2
    cases e2
    exact e1.unique ⟨by decide, str% "dir/", rfl, .inr rfl⟩
  subst hlast
  obtain ⟨out', k1, k2⟩ := h7 ⟨by simp [exEnv, Output.goodDisk, Output.fullDisk], fun _ => rfl, fun _ => rfl, by
      cases h2; cases h3
      intro fo
      show _ ≤ 1000000
      decide +kernel⟩ (by
      intro _ h
      have := h5.stack
      rw [h] at this
      cases this)
  refine ⟨text, file, out', k1, k2 _ (.inr (.inl ⟨rfl, rfl⟩)), k2 _ (.inr (.inr (.inr ⟨str% "/s", _, rfl, by decide, (inStore_iff (by decide)).mpr rfl, rfl⟩))),
    h4, h6, h5.infos, ?_⟩
  have hrules : rules = [] := by
    obtain ⟨cli, a, b, _, e, _, h, _⟩ := h1
    obtain ⟨rfl, rfl⟩ := h rfl
    exact e
  subst hrules
  have hwf : mB1.WF := .mk _ (by decide) (by decide) (by simp [mB1, Func.inlinees]) (by decide) (by simp [mB1, Func.inlinees])
  obtain ⟨shown, f1, f2⟩ := h5.answers.nested rfl 0x2000 0x2004 mB1
    ⟨⟨[], rfl⟩, by decide, by decide, by decide, by
      intro b h1 h2
      have : b = 0x2001 ∨ b = 0x2002 ∨ b = 0x2003 ∨ b = 0x2004 := by omega
      rcases this with rfl | rfl | rfl | rfl <;> rfl⟩
    trivial hwf (.mk _ (by simp [mB1, Func.inlinees]) (by simp [mB1, Func.inlinees])) (by decide) (str% "b()") ((shown_demangle sampleCEnv _ _).mpr rfl)
    (fun _ _ => str% "/c/y.c") (printedOrigin sampleCEnv) ⟨by
      intro f hf c r hr q hq
      simp only [List.mem_cons, Option.some.injEq, List.not_mem_nil, or_false] at hf
      subst hf
      obtain ⟨p, e1, e2⟩ := hq
      cases records_iff.mp (cenv_records (mapping := none).mpr e1)
      cases hr with
      | inlined _ g _ _ hg => simp [mB1, Func.inlinees] at hg
      | here _ l hl =>
        simp only [mB1, Func.lines, List.mem_cons, List.not_mem_nil, or_false] at hl
        subst hl
        rcases e2 with ⟨pre, rule, post, h, _⟩ | ⟨_, h⟩
        · simp at h
        · rw [h]; decide, ((printed_iff sampleCEnv (printedPath sampleCEnv) _).mpr ⟨rfl, rfl⟩).nameOf⟩
    ⟨0x2000, some 16, sampleFile3, 20⟩ sampleComp (.self _ _ _ (by simp [mB1, Func.lines]) ⟨by decide, by decide⟩ (by simp [mB1, Func.inlinees]))
    [] (.nil _ _ (by simp [mB1, Func.inlinees]))
  rcases f1 with rfl | ⟨h, _⟩
  · exact f2
  · cases h

end Run
end DumpSyms
