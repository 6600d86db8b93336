import Verif.Props.WinReport
import Verif.Props.WinCrashSeveral
import Verif.Props.Process
/-!
# C121: from the command line to the frames, on Windows

As C84, with the paths of Windows.
-/
namespace DumpSyms
namespace WinHost
open WinPath
open Cache (World)
open Dumper (Env Config prepare cenv)
open Run (Orders Options Action actionOf exitStatus Infos Takes)
open Output (FileOutput Out IoEnv)
open ObjectInfo Collector Reader

/-- The module can be put in the store, if there is one: the store is not verbatim, and the name and the id of the module are names Windows allows. -/
def Storable (o : Options) (last id : Str) : Prop := ∀ d, o.store = some d → d ≠ [] → PlainDir d ∧ WinProper last ∧ WinProper id

theorem store_given {o : Options} {dir : Str} (h : Out.ofOptions o.output o.store = .store dir ∨ ∃ fo, Out.ofOptions o.output o.store = .fileAndStore fo dir) :
    o.store = some dir := by
  unfold Output.Out.ofOptions at h
  cases h1 : o.output <;> cases h2 : o.store <;> rw [h1, h2] at h <;> rcases h with h | ⟨_, h⟩ <;> cases h <;> rfl

/-- A module that can be put in the store is written to all destinations. -/
theorem store_all (io : IoEnv) (extra : Option (List Str)) (o : Options) (m : ObjectInfo) (w : Output.World) {t : Str}
    (hs : Storable o m.fileName m.debugId) (hcfi : o.checkCfi = true → m.stack ≠ []) (ht : m.display extra = .ok t) (hio : Takes io t) :
    ∃ w', store io extra (.ofOptions o.output o.store) o.checkCfi m w = (.ok (), w') ∧
      ∀ fo, Destination o m.fileName m.debugId fo → Output.Holds w w' fo (Utf8.encode t) := by
  have hdest := destinations_of m o.output o.store
  by_cases h : ∃ d, o.store = some d ∧ d ≠ []
  · obtain ⟨d, h1, h2⟩ := h
    obtain ⟨_, hn, hi⟩ := hs d h1 h2
    obtain ⟨w', e1, e2⟩ := store_complete io extra (.ofOptions o.output o.store) o.checkCfi m w (fun dir hd hne => (hs dir (store_given hd) hne).1) hn hi hcfi ht
      hio.parts hio.mkdirs (fun p _ => hio.create p) (fun fo _ => hio.room fo)
    exact ⟨w', e1, fun fo hf => e2 fo ((hdest fo).mpr hf)⟩
  · have h2 : (destinations (.ofOptions o.output o.store) m).2 = none := by
      cases h2 : (destinations (.ofOptions o.output o.store) m).2 with
      | none => rfl
      | some p =>
        obtain ⟨dir, h3, h4, _⟩ := dest_store h2
        exact absurd ⟨dir, store_given h3, h4⟩ h
    have hreq : ∀ fo, Destination o m.fileName m.debugId fo → (destinations (.ofOptions o.output o.store) m).1 = some fo := by
      intro fo hf
      have hf := (hdest fo).mpr hf
      generalize hout : Out.ofOptions o.output o.store = out at hf
      cases hf with
      | file h' => rcases h' with rfl | ⟨d, rfl⟩ <;> rfl
      | store h' hd hp => exact absurd ⟨_, store_given (o := o) (by rw [hout]; exact h'), hd⟩ h
    have hgo : (o.checkCfi && !m.hasStack) = false := by
      cases hcc : o.checkCfi with
      | false => rfl
      | true => simpa [ObjectInfo.hasStack] using hcfi hcc
    unfold store
    simp only [hgo, Bool.false_eq_true, if_false, h2, ht]
    cases h1 : (destinations (.ofOptions o.output o.store) m).1 with
    | none => exact ⟨w, rfl, fun fo hf => by rw [hreq fo hf] at h1; cases h1⟩
    | some fo =>
      refine ⟨_, Output.writeTo_fits w (fun p _ => hio.create p) hio.parts (hio.room fo), fun fo' hf => ?_⟩
      rw [hreq fo' hf] at h1; cases h1
      exact Output.holds_receive w w fo _ rfl rfl

/-- **C121.** The program run on one file on Windows, from the options to the frames a user of the symbol file gets: as C84, for a module that can be put in
the store, if there is one. -/
theorem C121_process (env : Env) (hsha : ∀ d, ∀ b ∈ env.map.sha512 d, b < 256) (hord : ∀ l, (env.map.order l).Perm l)
    (version : Str) (cpus : Nat) (o : Options) (hla : o.listArch = false) (pre filename : Str) (hdir : WinDirPart pre)
    (hname : WinProper filename) (hfile : o.filenames = [pre ++ filename])
    (hid : ∀ id, o.debugId = some id ∨ o.codeId = some id → WinProper id)
    (hinfo : ∀ v ∈ o.extraInfo.getD [], Main.InfoLine v) (hlines : ∀ l ∈ Infos version o, OneLine l)
    (w : World) (hsane : Sane env w.disk) (hca : SaneCaches env o.symbolServer w.disk) (orders : Orders) (out : Output.World)
    (config : Config) (hcfg : Configures cpus o config)
    (hpe : ∀ b w1, Contents env config (pre ++ filename) filename w b w1 → SanePe env b ∧ SaneCaches env o.symbolServer w1.disk)
    (b : Bytes) (w1 : World) (hcont : Contents env config (pre ++ filename) filename w b w1)
    (mapping : Option (List Mapping.Generator))
    (hmap : Mapping.new env.map o.mappingVar o.mappingSrc o.mappingDest o.mappingFile = .ok mapping)
    (arch : Str) (harch : env.parsers.arch o.arch = some arch)
    (obj : ObjInput) (name : Str) (pe : Option ObjInput) (peName : Option Str) (platform : Platform) (opts : Bool) (w' : World)
    (hfrom : DumpedFrom env b pre filename arch o.symbolServer w1 obj name pe peName platform opts w')
    (mem : Mem) (U : List Str) (V : List Name) (fs : List (Option Func))
    (hok : ObjOk (cenv env platform (if opts then mapping else none) obj) mem U V platform obj fs)
    (hplain : PlainTexts (cenv env platform (if opts then mapping else none) obj) platform obj fs name pe peName)
    (hcode : obj.codeId = none → (∀ q, pe = some q → q.codeId = none) → ∀ l, (Infos version o).head? = some l → ¬ str% "CODE_ID " <+: l)
    (ps : List Public) (hps : obj.Embeds ps) :
    ∃ rules text file last, Mapping.Configured env.map o.mappingVar o.mappingSrc o.mappingDest o.mappingFile rules ∧
      (∃ m, ObjectInfo.fromObject (cenv env platform (if opts then mapping else none) obj) (o.inlines && opts) platform obj name pe peName = .ok m ∧
        m.display (some (Infos version o)) = .ok text) ∧ readSymFile text = some file ∧
      DumpSource.Describes
        { env := cenv env platform (if opts then mapping else none) obj, platform, main := obj, fs, publics := obj.publics ++ ps, name, pe, peName,
          inlines := o.inlines && opts
          prints := fun c r q => ∃ p,
            RecordedPath platform (OnHost env.os platform ∧ ¬ (obj.format = .pe ∧ obj.hasDebugInfo = true)) env.canon c r p ∧
            Mapping.MapsTo env.map (if opts then rules else []) p q } (Infos version o) file ∧
      file.modules = [(osName platform, obj.arch, obj.debugId, last)] ∧
      (Takes env.io text → (o.checkCfi = true → file.stack ≠ []) → Storable o last obj.debugId →
        ∃ out', (∀ code out'', Exits env version cpus o w orders out code out'' ↔ code = 0 ∧ out'' = out') ∧
          ∀ fo, Destination o last obj.debugId fo → Output.Holds out out' fo (Utf8.encode text)) := by
  obtain ⟨c, hact, hc⟩ := (C115_config cpus o).2 hla
  obtain ⟨r1, r2, r3⟩ := hc.search
  obtain ⟨q1, q2, q3⟩ := hcfg.search
  obtain ⟨m1, m2, m3, m4⟩ := hc.mapping
  obtain ⟨n1, n2⟩ := hc.reading
  have hcont' : ∀ b w1, Contents env c (pre ++ filename) filename w b w1 ↔ Contents env config (pre ++ filename) filename w b w1 :=
    fun b w1 => ⟨contents_of (by rw [r2, q2]) (by rw [r3, q3]) (by rw [r1, q1]), contents_of (by rw [r2, q2]) (by rw [r3, q3]) (by rw [r1, q1])⟩
  obtain ⟨rules, x1, x2⟩ := Dumper.C79_rules env hsha hord _ _ _ _ mapping hmap
  obtain ⟨m, text, file, y1, y2, y3, y4⟩ := C84_described _ mem U V platform obj fs hok (o.inlines && opts) name pe peName hplain
    (Infos version o) hlines hcode ps hps
  obtain ⟨last, z1, z2⟩ := y4.module
  refine ⟨rules, text, file, last, x1, ⟨m, y1, y2⟩, y3, ?_, z2, ?_⟩
  · exact y4.prints (Run.prints_mapped hok (x2 platform obj))
  · intro ht hcfi hst
    have hread : readSingle env c (pre ++ filename) w = (.ok m, w') := by
      refine (C112_run env c w w' hdir hname hsane (by rw [r2, r3]; exact hid) (by rw [r1]; exact hca)
        (fun b w1 h => by rw [r1]; exact hpe b w1 ((hcont' b w1).mp h)) m).mpr ?_
      refine ⟨b, w1, mapping, arch, obj, name, pe, peName, platform, opts, (hcont' b w1).mpr hcont, ?_, ?_, ?_, ?_⟩
      · rw [m1, m2, m3, m4]; exact hmap
      · rw [n1]; exact harch
      · rw [r1]; exact hfrom
      · rw [n2]; exact y1
    obtain ⟨k1, k2, k3, k4, k5, k6, k7⟩ := fromObject_header y1
    have hstack : file.stack ≠ [] → m.stack ≠ [] := by
      intro h h'
      have e := y4.stack
      have e' : ((pe.bind (·.unwind)).or obj.unwind).getD [] = [] := by
        rw [k6] at h'
        unfold getStackInfo at h'
        generalize pe.bind (·.unwind) = x at h'
        cases x <;> exact h'
      cases hs : file.stack with
      | nil => exact h hs
      | cons x xs =>
        rw [hs, List.flatMap_cons] at e
        have := e.trans e'
        simp at this
    have e1 : last = m.fileName := z1.unique (sourceOf_last y1)
    have houtput : c.output = Output.Out.ofOptions o.output o.store := by
      simp only [actionOf, hla, Bool.false_eq_true, if_false, Action.dump.injEq] at hact
      rw [← hact]
    obtain ⟨out', v1, v2⟩ := store_all env.io (some (Infos version o)) o m out (by rw [k3, ← e1]; exact hst) (fun h => hstack (hcfi h)) y2 ht
    have hsingle : singleFile env (some (Infos version o)) c (pre ++ filename) w out = (.ok (), w', out') := by
      unfold singleFile
      simp only [hread, houtput, hc.checkCfi, v1]
    refine ⟨out', fun code out'' => ?_, fun fo hfo => v2 fo (by rw [k3, ← e1]; exact hfo)⟩
    rw [exits_single hfile hact, hsingle]
    constructor
    · rintro (⟨⟨v, h1, h2⟩, _⟩ | ⟨_, h⟩)
      · exact absurd (hinfo v h1) h2
      · exact h
    · intro h; exact .inr ⟨hinfo, h⟩

/-! ## Example -/

/-- `dump_syms -o - -s D:\ -i --check-cfi --extra-info "X 1" C:\d\a`. -/
def winRunOptions : Options := { Run.runOptions with filenames := [str% "C:\\d\\" ++ str% "a"], store := some (str% "D:\\") }

theorem winElf_plain : PlainTexts (cenv winEnv .linux none winElf) .linux winElf [some mB1] (str% "a") none none where
  arch := by unfold Unbroken; decide
  debugId := by unfold Unbroken; decide
  codeId := by rintro c (h | ⟨q, h, _⟩) <;> cases h
  name := by unfold OneLine; decide
  ownName := by intro n h; cases h; unfold OneLine; decide
  peName := by intro p h; cases h
  paths := by
    intro f hf c i h p hp
    obtain ⟨_, h2, _⟩ := refOk_iff.mp (((winElf_ok).input.funcs f hf).refers h)
    cases records_iff.mp hp
    have key : ∀ q ∈ sampleU, '\n' ∉ ((cenv winEnv .linux none winElf).src.mapping q).getD q := by decide
    exact key _ h2
  functions := by
    intro f hf t h
    simp only [List.mem_cons, Option.some.injEq, List.not_mem_nil, or_false] at hf
    subst hf
    cases (shown_demangle (cenv winEnv .linux none winElf) _ _).mp h
    unfold OneLine; decide
  publics := by
    intro ps hps p hp t k ht
    rcases hps with rfl | hps
    · cases hp
    · obtain ⟨r, h1, h2⟩ := (embeds_iff (winElf_ok).embedded ps).mp hps
      cases h1; subst h2; cases hp
  sections := by intro hs h; cases h
  unwind := by
    rintro t (h | ⟨q, h, _⟩) <;> cases h
    exact ⟨[str% "CFI 1"], rfl, by intro l hl; simp at hl; subst hl; unfold OneLine; decide⟩

/-- C121 applied: the run ends with status 0, the store and standard output hold a text in which the address `0x2004` is in line 20 of `b`. -/
example : ∃ text file out', (∀ code out'', Exits winEnv (str% "1.0") 4 winRunOptions (winCrashDisk [1]) Run.exOrders
      Output.emptyWorld code out'' ↔ code = 0 ∧ out'' = out') ∧
    Output.Holds Output.emptyWorld out' .stdout (Utf8.encode text) ∧
    Output.Holds Output.emptyWorld out' (.path (str% "D:\\lib.so\\E1\\lib.so.sym")) (Utf8.encode text) ∧
    readSymFile text = some file ∧ file.modules = [(str% "Linux", str% "x86_64", str% "E1", str% "lib.so")] ∧
    file.extra = [str% "X 1", str% "GENERATOR mozilla/dump_syms 1.0"] ∧
    file.framesAt 0x2004 = some [⟨str% "b()", some (str% "/c/y.c"), 20⟩] := by
  obtain ⟨c, hact, hc⟩ := (C115_config 4 winRunOptions).2 rfl
  have hnone : winElf.Embeds [] := (embeds_iff winElf_ok.embedded []).mpr ⟨none, rfl, rfl⟩
  have hcont : ∀ b w1, Contents winEnv c (str% "C:\\d\\" ++ str% "a") (str% "a") (winCrashDisk [1]) b w1 ↔ b = [1] ∧ w1 = winCrashDisk [1] := by
    intro b w1
    constructor
    · intro h
      cases h with
      | byPath _ _ _ h => exact ⟨(winGone_holds .start b).mp h, rfl⟩
      | byId id _ _ _ h =>
        rw [hc.search.2.1, hc.search.2.2] at h
        rcases h with h | ⟨_, h⟩ <;> cases h
    · rintro ⟨rfl, rfl⟩
      exact .byPath _ hc.search.2.1 hc.search.2.2 ((winGone_holds .start [1]).mpr rfl)
  obtain ⟨rules, text, file, last, h1, ⟨m, h2, h3⟩, h4, h5, h6, h7⟩ := C121_process winEnv Run.exSeveral.sha Run.exSeveral.order (str% "1.0") 4
    winRunOptions rfl (str% "C:\\d\\") (str% "a") winGone_dir (winProper_of (by decide)) rfl
    (by rintro id (h | h) <;> cases h)
    (by intro v hv; simp [winRunOptions, Run.runOptions] at hv; subst hv; exact ⟨str% "X", str% "1", rfl, by decide, by decide⟩)
    (by intro l hl; unfold OneLine; revert l; decide)
    (winCrashDisk [1]) winGone_sane (winGone_caches .start) Run.exOrders Output.emptyWorld c hc
    (by
      intro b w1 h
      obtain ⟨rfl, rfl⟩ := (hcont b w1).mp h
      exact ⟨(fun pe r h => by cases h), winGone_caches .start⟩)
    [1] _ ((hcont _ _).mpr ⟨rfl, rfl⟩) none rfl (str% "x86_64") rfl winElf (str% "a") none none .linux true _
    (.elf _ rfl rfl) sampleMem sampleU sampleV [some mB1] winElf_ok winElf_plain (by intro _ _ l hl; cases hl; decide) [] hnone
  have hlast : last = str% "lib.so" := by
    obtain ⟨last', e1, e2⟩ := h5.module
    rw [h6] at e2
    cases e2
    exact e1.unique ⟨by decide, str% "dir/", rfl, .inr rfl⟩
  subst hlast
  obtain ⟨out', k1, k2⟩ := h7 ⟨by simp [winEnv, Dumper.exEnv, Output.goodDisk, Output.fullDisk], fun _ => rfl, fun _ => rfl, by
      cases h2; cases h3
      intro fo
      show _ ≤ 1000000
      decide +kernel⟩ (by
      intro _ h
      have := h5.stack
      rw [h] at this
      cases this) (by
      intro d hd _
      cases hd
      exact ⟨winD_plain, winProper_of (by decide), winProper_of (by decide)⟩)
  refine ⟨text, file, out', k1, k2 _ (.inr (.inl ⟨rfl, rfl⟩)), k2 _ (.inr (.inr (.inr ⟨str% "D:\\", _, rfl, by decide,
      (inStore_iff winD_plain (winProper_of (by decide)) (winProper_of (by decide))).mpr (by decide +kernel), rfl⟩))),
    h4, h6, h5.infos, ?_⟩
  have hrules : rules = [] := by
    obtain ⟨cli, a, b, _, e, _, h, _⟩ := h1
    obtain ⟨rfl, rfl⟩ := h rfl
    exact e
  subst hrules
  have hwf : mB1.WF := .mk _ (by decide) (by decide) (by simp [mB1, Func.inlinees]) (by decide) (by simp [mB1, Func.inlinees])
  obtain ⟨shown, f1, f2⟩ := h5.answers.nested rfl 0x2000 0x2004 mB1
    ⟨⟨[], rfl⟩, by decide, by decide, by decide, by
      intro b h1 h2
      have : b = 0x2001 ∨ b = 0x2002 ∨ b = 0x2003 ∨ b = 0x2004 := by omega
      rcases this with rfl | rfl | rfl | rfl <;> rfl⟩
    trivial hwf (.mk _ (by simp [mB1, Func.inlinees]) (by simp [mB1, Func.inlinees])) (by decide) (str% "b()") ((shown_demangle sampleCEnv _ _).mpr rfl)
    (fun _ _ => str% "/c/y.c") (printedOrigin sampleCEnv) ⟨by
      intro f hf c r hr q hq
      simp only [List.mem_cons, Option.some.injEq, List.not_mem_nil, or_false] at hf
      subst hf
      obtain ⟨p, e1, e2⟩ := hq
      cases records_iff.mp (Run.cenv_records (mapping := none).mpr e1)
      cases hr with
      | inlined _ g _ _ hg => simp [mB1, Func.inlinees] at hg
      | here _ l hl =>
        simp only [mB1, Func.lines, List.mem_cons, List.not_mem_nil, or_false] at hl
        subst hl
        rcases e2 with ⟨pre, rule, post, h, _⟩ | ⟨_, h⟩
        · simp at h
        · rw [h]; decide, ((printed_iff sampleCEnv (printedPath sampleCEnv) _).mpr ⟨rfl, rfl⟩).nameOf⟩
    ⟨0x2000, some 16, sampleFile3, 20⟩ sampleComp (.self _ _ _ (by simp [mB1, Func.lines]) ⟨by decide, by decide⟩ (by simp [mB1, Func.inlinees]))
    [] (.nil _ _ (by simp [mB1, Func.inlinees]))
  rcases f1 with rfl | ⟨h, _⟩
  · exact f2
  · cases h

end WinHost
end DumpSyms
