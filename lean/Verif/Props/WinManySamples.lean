import Verif.Props.WinMany
import Verif.Props.ManySamples
/-!
# C126: runs over three files that make up one module, on a Windows machine

As the samples of C125.
-/
namespace DumpSyms
open ObjectInfo Collector Reader

namespace WinHost
open Dumper (Config)
open Threads
open Run (Options Input Possible Orders exElf exElfBare exElfA exElfC exOrders played played_moments whole actionOf Infos
  manyEnv manyRun manyDump built manyWays textOf many_dumps manyPossible mA1_wf mA1_outside)

def winManyEnv : Dumper.Env := { winEnv with parsers := manyEnv.parsers }
def winManyFiles : List (Str × Node) := [(str% "C:\\d\\a", .file [1] true), (str% "C:\\d\\b", .file [1, 1] true),
  (str% "C:\\d\\d", .file [1, 3] true), (str% "C:\\d\\e", .file [1, 4] true)]
def winManyDisk : Cache.World := Dumper.exWorld winManyFiles

def winBare : Input := ⟨str% "C:\\d\\", str% "b", [1, 1], exElfBare, str% "b", none, none, .linux, true, [], []⟩
def winInA : Input := ⟨str% "C:\\d\\", str% "d", [1, 3], exElfA, str% "d", none, none, .linux, true, [some mA1], []⟩
def winInC : Input := ⟨str% "C:\\d\\", str% "e", [1, 4], exElfC, str% "e", none, none, .linux, true, [some mC1, some mC2, some mC3], []⟩

/-- Files of which two refer to source files. -/
def winManyInputs : List Input := [win0, winBare, winInA]
/-- Files that all do. -/
def winSourceInputs : List Input := [win0, winInA, winInC]

def winManyOptions (inputs : List Input) : Options :=
  { Run.exOptions (inputs.map fun x => x.pre ++ x.filename) with numJobs := str% "1", inlines := true, checkCfi := true, store := some (str% "D:\\") }

theorem winMany_ok {x : Input} (hx : x ∈ [win0, winBare, winInA, winInC]) :
    ObjOk (x.cenv winManyEnv none) sampleMem sampleU sampleV x.platform x.obj x.fs := by
  have ref : ∀ f ∈ [sampleFile1, sampleFile3],
      RefOk (Dumper.cenv winManyEnv .linux none exElfA).src sampleMem sampleU sampleComp f := by
    intro f hf
    refine refOk_iff.mpr ⟨(sampleRef (by simp only [List.mem_cons, List.not_mem_nil, or_false] at hf ⊢; rcases hf with rfl | rfl <;> simp)).1, ?_, rfl⟩
    revert f; decide +kernel
  have node : ∀ (a s : Nat) (n : Name) (ls : List LineInfo) (is : List Func), (∀ l ∈ ls, l.file ∈ [sampleFile1, sampleFile3]) →
      (∀ g ∈ is, g.name ∈ sampleV ∧ g.All (RefOk (Dumper.cenv winManyEnv .linux none exElfA).src sampleMem sampleU) (fun n => n ∈ sampleV)) →
      (Func.mk a s n sampleComp ls is).All (RefOk (Dumper.cenv winManyEnv .linux none exElfA).src sampleMem sampleU) (fun n => n ∈ sampleV) :=
    fun a s n ls is h hi => .mk _ (fun l hl => ref _ (h l hl)) (fun g hg => (hi g hg).1) (fun g hg => (hi g hg).2)
  simp only [List.mem_cons, List.not_mem_nil, or_false] at hx
  rcases hx with rfl | rfl | rfl | rfl
  case inl => exact winElf_ok
  all_goals
    refine ⟨rfl, ⟨by decide, by decide, sampleSort, ?_⟩, (by intro es h; cases h), (fun h => by cases h),
      embeddedInside_of_kind (by intro l h; cases h)⟩
    intro f hf
    simp only [winBare, winInA, winInC, List.mem_cons, Option.some.injEq, List.not_mem_nil, or_false] at hf
  · subst hf
    refine node _ _ _ _ _ (by decide) ?_
    intro g hg
    simp only [List.mem_cons, List.not_mem_nil, or_false] at hg
    rcases hg with rfl | rfl <;> exact ⟨by decide, node _ _ _ _ _ (by decide) (by simp)⟩
  · rcases hf with rfl | rfl | rfl <;> exact node _ _ _ _ _ (by decide) (by simp)

theorem winMany_plain {x : Input} (hx : x ∈ [win0, winBare, winInA, winInC]) :
    PlainTexts (x.cenv winManyEnv none) x.platform x.obj x.fs x.name x.pe x.peName := by
  have hok := winMany_ok hx
  simp only [List.mem_cons, List.not_mem_nil, or_false] at hx
  rcases hx with rfl | rfl | rfl | rfl
  case inl => exact winElf_plain
  all_goals
    refine ⟨by unfold Unbroken; decide, by unfold Unbroken; decide, ?_, by unfold OneLine; decide, ?_, ?_, ?_, ?_, ?_, ?_, ?_⟩
    · rintro c (h | ⟨q, h, _⟩) <;> cases h <;> decide
    · intro n h; cases h; unfold OneLine; decide
    · intro p h; cases h
    · intro f hf c i h p hp
      obtain ⟨_, h2, _⟩ := refOk_iff.mp ((hok.input.funcs f hf).refers h)
      cases records_iff.mp hp
      have key : ∀ q ∈ sampleU, '\n' ∉ ((Dumper.cenv winEnv .linux none winElf).src.mapping q).getD q := by decide
      exact key _ h2
    · intro f hf t h
      simp only [winBare, winInA, winInC, List.mem_cons, Option.some.injEq, List.not_mem_nil, or_false] at hf
      all_goals first
      | (subst hf
         cases (shown_demangle (Dumper.cenv winEnv .linux none winElf) _ _).mp h
         unfold OneLine; decide)
      | (rcases hf with rfl | rfl | rfl <;> cases (shown_demangle (Dumper.cenv winEnv .linux none winElf) _ _).mp h <;> (unfold OneLine; decide))
    · intro ps hps p hp t k ht
      rcases hps with rfl | hps
      · first
        | (cases hp; done)
        | (have hp' : p ∈ [⟨some (str% "b"), 0x2000, 0x10⟩, ⟨some (str% "p"), 0x4000, 4⟩] := hp
           simp only [List.mem_cons, List.not_mem_nil, or_false] at hp'
           rcases hp' with rfl | rfl
           · have := ((ht.2 _ rfl).1 (by decide)).1.1 rfl
             subst this; unfold OneLine; decide
           · have := ((ht.2 _ rfl).1 (by decide)).1.1 rfl
             subst this; unfold OneLine; decide)
      · obtain ⟨r, h1, h2⟩ := (embeds_iff hok.embedded ps).mp hps
        cases h1; subst h2; cases hp
    · intro hs h; cases h
    · rintro t (h | ⟨q, h, _⟩) <;> cases h
      exact ⟨[str% "CFI 2"], rfl, by intro l hl; simp at hl; subst hl; unfold OneLine; decide⟩

theorem winManyDisk_sane : Sane winManyEnv winManyDisk.disk := by
  have h := winCrash_sane winManyFiles (by
    intro x hx es
    simp only [winManyFiles, List.mem_cons, List.not_mem_nil, or_false] at hx
    rcases hx with rfl | rfl | rfl | rfl <;> (intro h; cases h))
  exact ⟨h.dirs, h.room, h.arrivals, h.cwd, h.home⟩

theorem winManyNoServer : ∀ servers, getSymServers winManyEnv.home winManyDisk.disk none ≠ .ok (some servers) := by
  intro servers h
  have : getSymServers winManyEnv.home winManyDisk.disk none = .ok none := by decide +kernel
  rw [this] at h; cases h

theorem winMany_each {w : Cache.World} (hw : Meanwhile winManyEnv winManyDisk w) {x : Input} (hx : x ∈ [win0, winBare, winInA, winInC]) :
    InputOk x winManyEnv none (str% "x86_64") w [] := by
  have hdisk := hw.same_disk winManyNoServer
  obtain ⟨disk, log⟩ := w
  cases hdisk
  clear hw
  have hok := winMany_ok hx
  have hplain := winMany_plain hx
  simp only [List.mem_cons, List.not_mem_nil, or_false] at hx
  have hca : SaneCaches winManyEnv none winManyDisk.disk := fun ss h =>
    absurd (((C110_configured winManyEnv.home winManyDisk.disk none winPair_sane.home).1 _).mpr h) (winManyNoServer ss)
  have hc : x.Clear winManyEnv none [] := by
    refine ⟨⟨_, _, _, hok⟩, hplain, (by intro _ _ l hl; cases hl), (embeds_iff hok.embedded _).mpr ⟨none, ?_, ?_⟩⟩ <;>
      (rcases hx with rfl | rfl | rfl | rfl <;> rfl)
  rcases hx with rfl | rfl | rfl | rfl
  · have hr : PathHolds winManyEnv.net.cab winManyDisk.disk (str% "C:\\d\\" ++ str% "a") [1] :=
      ((readFile_dir winManyEnv.net.cab winManyDisk.disk winGone_dir (winProper_of (by decide)) winManyDisk_sane.dirs).1 _).mp (by decide +kernel)
    exact ⟨winGone_dir, winProper_of (by decide), hr, (fun _ _ h => by cases h), hca, ⟨_, .elf _ rfl rfl⟩, hc, (by
      intro last h
      cases h.unique (show AfterLast '/' _ (str% "lib.so") from ⟨by decide, str% "dir/", rfl, .inr rfl⟩)
      exact winProper_of (by decide)), winProper_of (by decide)⟩
  · have hr : PathHolds winManyEnv.net.cab winManyDisk.disk (str% "C:\\d\\" ++ str% "b") [1, 1] :=
      ((readFile_dir winManyEnv.net.cab winManyDisk.disk winGone_dir (winProper_of (by decide)) winManyDisk_sane.dirs).1 _).mp (by decide +kernel)
    exact ⟨winGone_dir, winProper_of (by decide), hr, (fun _ _ h => by cases h), hca, ⟨_, .elf _ rfl rfl⟩, hc, (by
      intro last h
      cases h.unique (show AfterLast '/' _ (str% "lib.so") from ⟨by decide, [], rfl, .inl rfl⟩)
      exact winProper_of (by decide)), winProper_of (by decide)⟩
  · have hr : PathHolds winManyEnv.net.cab winManyDisk.disk (str% "C:\\d\\" ++ str% "d") [1, 3] :=
      ((readFile_dir winManyEnv.net.cab winManyDisk.disk winGone_dir (winProper_of (by decide)) winManyDisk_sane.dirs).1 _).mp (by decide +kernel)
    exact ⟨winGone_dir, winProper_of (by decide), hr, (fun _ _ h => by cases h), hca, ⟨_, .elf _ rfl rfl⟩, hc, (by
      intro last h
      cases h.unique (show AfterLast '/' _ (str% "lib.so.debug") from ⟨by decide, [], rfl, .inl rfl⟩)
      exact winProper_of (by decide)), winProper_of (by decide)⟩
  · have hr : PathHolds winManyEnv.net.cab winManyDisk.disk (str% "C:\\d\\" ++ str% "e") [1, 4] :=
      ((readFile_dir winManyEnv.net.cab winManyDisk.disk winGone_dir (winProper_of (by decide)) winManyDisk_sane.dirs).1 _).mp (by decide +kernel)
    exact ⟨winGone_dir, winProper_of (by decide), hr, (fun _ _ h => by cases h), hca, ⟨_, .elf _ rfl rfl⟩, hc, (by
      intro last h
      cases h.unique (show AfterLast '/' _ (str% "lib.so") from ⟨by decide, [], rfl, .inl rfl⟩)
      exact winProper_of (by decide)), winProper_of (by decide)⟩

theorem winManySeveral {inputs : List Input} (hin : inputs = winManyInputs ∨ inputs = winSourceInputs) :
    Several winManyEnv (str% "1.0") (winManyOptions inputs) inputs winManyDisk exOrders none (str% "x86_64") 2 (str% "D:\\") := by
  have hpool : ∀ x ∈ inputs, x ∈ [win0, winBare, winInA, winInC] := by
    intro x hx
    rcases hin with rfl | rfl <;> simp only [winManyInputs, winSourceInputs, List.mem_cons, List.not_mem_nil, or_false] at hx <;>
      rcases hx with rfl | rfl | rfl <;> simp
  have hlen : inputs.length = 3 := by rcases hin with rfl | rfl <;> rfl
  have hopts : ∀ x ∈ inputs, x.opts = true := by
    intro x hx
    have := hpool x hx
    simp only [List.mem_cons, List.not_mem_nil, or_false] at this
    rcases this with rfl | rfl | rfl | rfl <;> rfl
  exact {
    sha := by
      intro d b hb
      obtain ⟨x, _, rfl⟩ := List.mem_map.mp hb
      omega
    order := fun l => List.reverse_perm l
    noList := rfl
    files := rfl
    notOne := by rw [hlen]; decide
    info := by intro v hv; cases hv
    lines := by intro l hl; cases hl
    sane := winManyDisk_sane
    plain := by
      intro d hd _
      cases hd
      exact winD_plain
    results := fun t => .refl _
    hashes := fun l t => .refl _
    rules := rfl
    knownArch := rfl
    each := fun w hw x hx => winMany_each hw (hpool x hx)
    size := by
      intro x hx m hm
      obtain ⟨i, hi⟩ := List.mem_iff_getElem?.mp hx
      have hi3 : i < 3 := by rw [← hlen]; exact (List.getElem?_eq_some_iff.mp hi).1
      cases many_dumps hi (hopts x hx) hm
      have key : ∀ i < 3, (manyDump winManyEnv winManyInputs i).files.getMapping.length ≤ 2 ∧ (manyDump winManyEnv winManyInputs i).inlineOrigins.length ≤ 2 := by decide +kernel
      have key2 : ∀ i < 3, (manyDump winManyEnv winSourceInputs i).files.getMapping.length ≤ 2 ∧ (manyDump winManyEnv winSourceInputs i).inlineOrigins.length ≤ 2 := by decide +kernel
      rcases hin with rfl | rfl
      · exact key i hi3
      · exact key2 i hi3
    below := by rw [hlen]; decide
    cfi := by
      intro _ x hx
      have := hpool x hx
      simp only [List.mem_cons, List.not_mem_nil, or_false] at this
      rcases this with rfl | rfl | rfl | rfl <;> decide
    store := rfl
    named := by decide
    output := by intro f h; cases h
    parts := by simp [winManyEnv, winEnv, Dumper.exEnv, Output.goodDisk, Output.fullDisk]
    mkdirs := fun _ => rfl
    create := fun _ => rfl
    room := by
      intro l m t hm ht fo
      obtain ⟨h1, rfl⟩ := manyPossible hlen hopts hm
      have hb : ∀ l ∈ manyWays, Run.lengthOf (built winManyEnv winManyInputs l) ≤ 1000000 := by decide +kernel
      have hb2 : ∀ l ∈ manyWays, Run.lengthOf (built winManyEnv winSourceInputs l) ≤ 1000000 := by decide +kernel
      have ht' : (built winManyEnv inputs l).display (some []) = .ok t := ht
      have hl : Run.lengthOf (built winManyEnv inputs l) ≤ 1000000 := by
        rcases hin with rfl | rfl
        · exact hb l h1
        · exact hb2 l h1
      unfold Run.lengthOf at hl
      rw [ht'] at hl
      exact hl }

def winManyConfig (inputs : List Input) : Config := match actionOf 4 (winManyOptions inputs) with | .dump c => c | _ => Dumper.exConfig
def winManyThreads (inputs : List Input) : Threads.Env :=
  threads winManyEnv (some []) (winManyConfig inputs) (winManyOptions inputs).filenames (fun _ => winManyDisk) exOrders none (str% "x86_64") Output.emptyWorld

def winManyLast (inputs : List Input) : Threads.Moment :=
  played (winManyThreads inputs) (callsOf winManyEnv.io (some []) (winManyConfig inputs).output (winManyConfig inputs).checkCfi) Output.emptyWorld
    (whole manyRun)

theorem winManyRun_exits : Exits winManyEnv (str% "1.0") 4 (winManyOptions winManyInputs) winManyDisk exOrders Output.emptyWorld 0 (winManyLast winManyInputs).out :=
  .acts [] (.ok ()) _ rfl (.several (winManyConfig winManyInputs) (fun _ => winManyDisk) (.ok ()) _ (by decide) (fun _ => .start)
    (.returned none (str% "x86_64") (winManyLast winManyInputs) rfl (played_moments (by decide +kernel)) (by decide +kernel)))

theorem winSourceRun_exits : Exits winManyEnv (str% "1.0") 4 (winManyOptions winSourceInputs) winManyDisk exOrders Output.emptyWorld 0 (winManyLast winSourceInputs).out :=
  .acts [] (.ok ()) _ rfl (.several (winManyConfig winSourceInputs) (fun _ => winManyDisk) (.ok ()) _ (by decide) (fun _ => .start)
    (.returned none (str% "x86_64") (winManyLast winSourceInputs) rfl (played_moments (by decide +kernel)) (by decide +kernel)))

/-- The address `0x1006` is in line 10 of `x.c`. -/
theorem winInA_frames {on : Nat → Nat → Prop} {frames : Nat → Option (List Frame)} (h : (winInA.source winManyEnv none [] true).Answers on frames)
    (hon : on 0x1000 0x1006) : frames 0x1006 = some [⟨str% "a()", some (str% "/b/x.c"), 10⟩] := by
  obtain ⟨shown, f1, f2⟩ := h.nested rfl 0x1000 0x1006 mA1
    ⟨⟨[], rfl⟩, by decide, by decide, by decide, by
      intro b h1 h2
      have : b = 0x1001 ∨ b = 0x1002 ∨ b = 0x1003 ∨ b = 0x1004 ∨ b = 0x1005 ∨ b = 0x1006 := by omega
      rcases this with rfl | rfl | rfl | rfl | rfl | rfl <;> rfl⟩
    hon mA1_wf (.mk _ (by
      intro g hg
      simp only [mA1, Func.inlinees, List.mem_cons, List.not_mem_nil, or_false] at hg
      rcases hg with rfl | rfl <;> simp [Func.NoGap, Func.lines, Adj]) (by
      intro g hg
      simp only [mA1, Func.inlinees, List.mem_cons, List.not_mem_nil, or_false] at hg
      rcases hg with rfl | rfl <;> exact .mk _ (by simp [Func.inlinees]) (by simp [Func.inlinees]))) (by decide) (str% "a()")
    ((shown_demangle sampleCEnv _ _).mpr rfl) (fun _ r => if r = sampleFile3 then str% "/c/y.c" else str% "/b/x.c") (printedOrigin sampleCEnv) ⟨by
      intro f hf c r hr q hq
      obtain ⟨p, e1, e2⟩ := hq
      have hf' : some f ∈ [some mA1] := hf
      simp only [List.mem_cons, Option.some.injEq, List.not_mem_nil, or_false] at hf'
      subst hf'
      cases records_iff.mp (Run.cenv_records (mapping := none).mpr e1)
      have hcr : c = sampleComp ∧ (r = sampleFile1 ∨ r = sampleFile3) := by
        cases hr with
        | inlined _ g _ _ hg hr =>
          simp only [mA1, Func.inlinees, List.mem_cons, List.not_mem_nil, or_false] at hg
          rcases hg with rfl | rfl <;> cases hr with
          | inlined _ g _ _ hg => simp [Func.inlinees] at hg
          | here _ l hl =>
            simp only [Func.lines, List.mem_cons, List.not_mem_nil, or_false] at hl
            subst hl; exact ⟨rfl, .inl rfl⟩
        | here _ l hl =>
          simp only [mA1, Func.lines, List.mem_cons, List.not_mem_nil, or_false] at hl
          rcases hl with rfl | rfl
          · exact ⟨rfl, .inl rfl⟩
          · exact ⟨rfl, .inr rfl⟩
      rcases e2 with ⟨pre, rule, post, h, _⟩ | ⟨_, h⟩
      · simp at h
      · rw [h]
        obtain ⟨rfl, rfl | rfl⟩ := hcr <;> decide, ((printed_iff sampleCEnv (printedPath sampleCEnv) _).mpr ⟨rfl, rfl⟩).nameOf⟩
    ⟨0x1000, some 8, sampleFile1, 10⟩ sampleComp (.self _ _ _ (by simp [mA1, Func.lines]) ⟨by decide, by decide⟩ (fun _ hg => mA1_outside hg))
    [] (.nil _ _ (fun _ hg => mA1_outside hg))
  rcases f1 with rfl | ⟨h, _⟩
  · exact f2
  · cases h

theorem winManyTwo (i j k : Nat) (x y z : Input) (hi : winManyInputs[i]? = some x) (hj : winManyInputs[j]? = some y) (hk : winManyInputs[k]? = some z)
    (hx : x.Sources) (hy : y.Sources) (hz : z.Sources) : i = j ∨ i = k ∨ j = k := by
  have sources : ∀ (i : Nat) (x : Input), winManyInputs[i]? = some x → x.Sources → i = 0 ∨ i = 2 := by
    rintro i x hi ⟨f, c, r, hf, _⟩
    match i with
    | 0 => exact .inl rfl
    | 1 => cases hi; cases hf
    | 2 => exact .inr rfl
    | i + 3 => cases hi
  have := sources i x hi hx
  have := sources j y hj hy
  have := sources k z hk hz
  omega

/-- No function of the others starts in `b` up to `0x2004`. -/
theorem winManyAway0 (j : Nat) (y : Input) (hj : winManyInputs[j]? = some y) (hne : j ≠ 0) (b : Nat) (b1 : 0x2000 ≤ b) (b2 : b ≤ 0x2004) : ¬ y.StartsAt b := by
  intro h
  have hb : b = 0x2000 ∨ b = 0x2001 ∨ b = 0x2002 ∨ b = 0x2003 ∨ b = 0x2004 := by omega
  match j with
  | 0 => exact hne rfl
  | 1 | 2 =>
    cases hj
    rcases h with h | ⟨h, _⟩
    · rcases hb with rfl | rfl | rfl | rfl | rfl <;> exact h rfl
    · cases h
  | j + 3 => cases hj

/-- No function of the others starts in `a` up to `0x1006`. -/
theorem winManyAwayA (j : Nat) (y : Input) (hj : winManyInputs[j]? = some y) (hne : j ≠ 2) (b : Nat) (b1 : 0x1000 ≤ b) (b2 : b ≤ 0x1006) : ¬ y.StartsAt b := by
  intro h
  have hb : b = 0x1000 ∨ b = 0x1001 ∨ b = 0x1002 ∨ b = 0x1003 ∨ b = 0x1004 ∨ b = 0x1005 ∨ b = 0x1006 := by omega
  match j with
  | 0 | 1 =>
    cases hj
    rcases h with h | ⟨h, _⟩
    · rcases hb with rfl | rfl | rfl | rfl | rfl | rfl | rfl <;> exact h rfl
    · cases h
  | 2 => exact hne rfl
  | j + 3 => cases hj

/-- C126 applied: the symbol file made of the three files says that address `0x2004` is in line 20 of `b`, although one of the others has a public
symbol there, and that `0x1006` is in line 10 of `a`, as a third one says. -/
example : ∃ text file p name out', Exits winManyEnv (str% "1.0") 4 (winManyOptions winManyInputs) winManyDisk exOrders Output.emptyWorld 0 out' ∧
    InStore (str% "D:\\") name (str% "E1") p ∧ out'.files p = some (Utf8.encode text) ∧ readSymFile text = some file ∧
    file.framesAt 0x2004 = some [⟨str% "b()", some (str% "/c/y.c"), 20⟩] ∧ file.framesAt 0x1006 = some [⟨str% "a()", some (str% "/b/x.c"), 10⟩] := by
  obtain ⟨rules, h1, h2⟩ := C126_many_partial winManyEnv (str% "1.0") 4 (winManyOptions winManyInputs) winManyInputs winManyDisk exOrders none (str% "x86_64") 2
    (str% "D:\\") (winManySeveral (.inl rfl)) Output.emptyWorld
  have hrules : rules = [] := winRules h1
  subst hrules
  obtain ⟨_, h3⟩ := h2 _ _ winManyRun_exits
  obtain ⟨text, file, p, os, cpu, name, k1, k2, k3, k4, k5⟩ := h3 (str% "E1") ⟨win0, by simp [winManyInputs], rfl⟩
    (fun i j k x y z hi hj hk _ _ _ => winManyTwo i j k x y z hi hj hk) (.inl rfl)
  exact ⟨text, file, p, name, _, winManyRun_exits, k3, k4, k1, winFrames0 (k5 0 win0 rfl rfl) (fun j y hj _ => winManyAway0 j y hj),
    winInA_frames (k5 2 winInA rfl rfl) (fun j y hj _ => winManyAwayA j y hj)⟩

/-- C126 applied to the destinations of the same run. -/
example : ∃ text file name out', Exits winManyEnv (str% "1.0") 4 (winManyOptions winManyInputs) winManyDisk exOrders Output.emptyWorld 0 out' ∧
    (∀ fo, Destination (winManyOptions winManyInputs) name (str% "E1") fo → Output.Holds Output.emptyWorld out' fo (Utf8.encode text)) ∧
    readSymFile text = some file ∧ file.framesAt 0x2004 = some [⟨str% "b()", some (str% "/c/y.c"), 20⟩] ∧
    file.framesAt 0x1006 = some [⟨str% "a()", some (str% "/b/x.c"), 10⟩] := by
  obtain ⟨rules, h1, h2⟩ := C126_one_id_partial winManyEnv (str% "1.0") 4 (winManyOptions winManyInputs) winManyInputs winManyDisk exOrders none (str% "x86_64") 2
    (winManySeveral (.inl rfl)).toWorkable (by simp [winManyInputs]) (str% "E1") (by
      intro x hx
      simp only [winManyInputs, List.mem_cons, List.not_mem_nil, or_false] at hx
      rcases hx with rfl | rfl | rfl <;> rfl) winManyTwo (.inl rfl) Output.emptyWorld
  have hrules : rules = [] := winRules h1
  subst hrules
  obtain ⟨_, text, file, os, cpu, name, k1, k2, k3, k4⟩ := h2 _ _ winManyRun_exits
  exact ⟨text, file, name, _, winManyRun_exits, k3, k1, winFrames0 (k4 0 win0 rfl) winManyAway0, winInA_frames (k4 2 winInA rfl) winManyAwayA⟩

/-- **C126 fails if three inputs refer to source files.** The run over the three files ends with status 0, and the text in the store says that the address
`0x1006` is in line 10 of `y.c`; the debug information of the second file, the only one with a function there, says that it is in line 10 of `x.c`. -/
theorem C126_many_witness :
    Several winManyEnv (str% "1.0") (winManyOptions winSourceInputs) winSourceInputs winManyDisk exOrders none (str% "x86_64") 2 (str% "D:\\") ∧
    ∃ text file p name out', Exits winManyEnv (str% "1.0") 4 (winManyOptions winSourceInputs) winManyDisk exOrders Output.emptyWorld 0 out' ∧
      InStore (str% "D:\\") name (str% "E1") p ∧ out'.files p = some (Utf8.encode text) ∧ readSymFile text = some file ∧
      file.framesAt 0x1006 = some [⟨str% "a()", some (str% "/c/y.c"), 10⟩] ∧
      winSourceInputs[1]? = some winInA ∧
      ¬ (winInA.source winManyEnv none [] true).Answers (fun addr a => ∀ (j : Nat) (y : Input), winSourceInputs[j]? = some y → j ≠ 1 →
        ∀ b, addr ≤ b → b ≤ a → ¬ y.StartsAt b) file.framesAt := by
  refine ⟨winManySeveral (.inr rfl), ?_⟩
  have hread : ((readSymFile (textOf (built winManyEnv winSourceInputs [2, 1, 0]))).map fun f => f.framesAt 0x1006) =
      some (some [⟨str% "a()", some (str% "/c/y.c"), 10⟩]) := by decide +kernel
  obtain ⟨file, h1, h2⟩ := Option.map_eq_some_iff.mp hread
  refine ⟨textOf (built winManyEnv winSourceInputs [2, 1, 0]), file, str% "D:\\lib.so\\E1\\lib.so.sym", str% "lib.so", _, winSourceRun_exits, ?_, by decide +kernel, h1, h2, rfl, ?_⟩
  · exact (inStore_iff winD_plain (winProper_of (by decide)) (winProper_of (by decide))).mpr (by decide +kernel)
  · intro h
    have := winInA_frames h (by
      intro j y hj hne b b1 b2 hs
      have hb : b = 0x1000 ∨ b = 0x1001 ∨ b = 0x1002 ∨ b = 0x1003 ∨ b = 0x1004 ∨ b = 0x1005 ∨ b = 0x1006 := by omega
      match j with
      | 0 =>
        cases hj
        rcases hs with h | ⟨h, _⟩
        · rcases hb with rfl | rfl | rfl | rfl | rfl | rfl | rfl <;> exact h rfl
        · cases h
      | 1 => exact hne rfl
      | 2 =>
        cases hj
        rcases hs with h | ⟨h, _⟩
        · rcases hb with rfl | rfl | rfl | rfl | rfl | rfl | rfl <;> exact h rfl
        · cases h
      | j + 3 => cases hj)
    rw [h2] at this
    revert this; decide

end WinHost
end DumpSyms
