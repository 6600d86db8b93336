import Verif.Props.WinSeveral
/-!
# C122: a run over three files on Windows

As the samples of C85.
-/
namespace DumpSyms
open ObjectInfo Collector Reader

namespace WinHost
open Dumper (Config)
open Threads
open Run (Options Input Possible Orders exElf exElf2 exMach exOrders played played_moments whole actionOf Infos numeral1)

def winEnv2 : Dumper.Env := { winEnv with parsers := Run.exEnv2.parsers }
def winThree : List Str := [str% "C:\\d\\a", str% "C:\\d\\b", str% "C:\\d\\c"]
def winDisk3 : Cache.World := Dumper.exWorld [(str% "C:\\d\\a", .file [1] true), (str% "C:\\d\\b", .file [1, 1] true), (str% "C:\\d\\c", .file [4, 1] true)]
def winOptions3 : Options := { Run.exOptions winThree with numJobs := str% "2", inlines := true, checkCfi := true, store := some (str% "D:\\") }

def win0 : Input := ⟨str% "C:\\d\\", str% "a", [1], exElf, str% "a", none, none, .linux, true, [some mB1], []⟩
def win1 : Input := ⟨str% "C:\\d\\", str% "b", [1, 1], exElf2, str% "b", none, none, .linux, true, [some mC1], []⟩
def win2 : Input := ⟨str% "C:\\d\\", str% "c", [4, 1], exMach, str% "c", none, none, .mac, true, [some mB1], []⟩
def winInputs : List Input := [win0, win1, win2]

def wd0 : ObjectInfo := theObj (fromObject (win0.cenv winEnv2 none) true .linux exElf (str% "a") none none)
def wd1 : ObjectInfo := theObj (fromObject (win1.cenv winEnv2 none) true .linux exElf2 (str% "b") none none)
def wd2 : ObjectInfo := theObj (fromObject (win2.cenv winEnv2 none) true .mac exMach (str% "c") none none)
def wd01 : ObjectInfo := theObj (ObjectInfo.merge id wd0 wd1)
def wd10 : ObjectInfo := theObj (ObjectInfo.merge id wd1 wd0)

theorem winDumps {i : Nat} {x : Input} {m : ObjectInfo} (hi : winInputs[i]? = some x) (h : x.Dumps winEnv2 none true m) :
    i = 0 ∧ m = wd0 ∨ i = 1 ∧ m = wd1 ∨ i = 2 ∧ m = wd2 := by
  match i with
  | 0 => cases hi; cases h; exact .inl ⟨rfl, rfl⟩
  | 1 => cases hi; cases h; exact .inr (.inl ⟨rfl, rfl⟩)
  | 2 => cases hi; cases h; exact .inr (.inr ⟨rfl, rfl⟩)
  | i + 3 => cases hi

theorem winPossible {l : List Nat} {m : ObjectInfo} (h : Possible winEnv2 none true exOrders.tables winInputs l m) :
    (l = [0] ∧ m = wd0) ∨ (l = [1] ∧ m = wd1) ∨ (l = [2] ∧ m = wd2) ∨ (l = [0, 1] ∧ m = wd01) ∨ (l = [1, 0] ∧ m = wd10) := by
  have hid : wd0.debugId = str% "E1" ∧ wd1.debugId = str% "E1" ∧ wd2.debugId = str% "D1" ∧ wd01.debugId = str% "E1" ∧ wd10.debugId = str% "E1" := by
    decide +kernel
  obtain ⟨i0, i1, i2, i01, i10⟩ := hid
  induction h with
  | one i x m hi hm => rcases winDumps hi hm with ⟨rfl, rfl⟩ | ⟨rfl, rfl⟩ | ⟨rfl, rfl⟩ <;> simp
  | more i l x m p c hi hm hl hp hc ih =>
    have he := (merge_ok hc).1
    rcases winDumps hi hm with ⟨rfl, rfl⟩ | ⟨rfl, rfl⟩ | ⟨rfl, rfl⟩ <;>
      rcases ih with ⟨rfl, rfl⟩ | ⟨rfl, rfl⟩ | ⟨rfl, rfl⟩ | ⟨rfl, rfl⟩ | ⟨rfl, rfl⟩ <;>
      first
      | exact absurd hl (by decide)
      | (rw [i0, i2] at he; exact absurd he (by decide))
      | (rw [i1, i2] at he; exact absurd he (by decide))
      | (rw [i2, i01] at he; exact absurd he (by decide))
      | (rw [i2, i10] at he; exact absurd he (by decide))
      | (have e : ObjectInfo.merge id wd0 wd1 = .ok wd01 := rfl
         have := e.symm.trans hc
         cases this
         simp
         done)
      | (have e : ObjectInfo.merge id wd1 wd0 = .ok wd10 := rfl
         have := e.symm.trans hc
         cases this
         simp)

theorem winInputs_ok {x : Input} (hx : x ∈ winInputs) : ObjOk (x.cenv winEnv2 none) sampleMem sampleU sampleV x.platform x.obj x.fs := by
  simp only [winInputs, List.mem_cons, List.not_mem_nil, or_false] at hx
  rcases hx with rfl | rfl | rfl
  case inl => exact winElf_ok
  all_goals
    refine ⟨rfl, ⟨by decide, by decide, sampleSort, ?_⟩, (by intro es h; cases h), (fun h => by cases h),
      embeddedInside_of_kind (by intro l h; cases h)⟩
    intro f hf
    simp only [win1, win2, List.mem_cons, Option.some.injEq, List.not_mem_nil, or_false] at hf
    subst hf
    refine .mk _ (fun l hl => ?_) (fun g hg => by cases hg) (fun g hg => by cases hg)
    simp only [Func.lines, mB1, mC1, List.mem_cons, List.not_mem_nil, or_false] at hl
    subst hl
    exact refOk_iff.mpr ⟨(sampleRef (f := sampleFile3) (by simp)).1, by decide +kernel, rfl⟩

theorem winInputs_plain {x : Input} (hx : x ∈ winInputs) : PlainTexts (x.cenv winEnv2 none) x.platform x.obj x.fs x.name x.pe x.peName := by
  have hok := winInputs_ok hx
  simp only [winInputs, List.mem_cons, List.not_mem_nil, or_false] at hx
  rcases hx with rfl | rfl | rfl
  case inl => exact winElf_plain
  all_goals
    refine ⟨by unfold Unbroken; decide, by unfold Unbroken; decide, ?_, by unfold OneLine; decide, ?_, ?_, ?_, ?_, ?_, ?_, ?_⟩
    · rintro c (h | ⟨q, h, _⟩) <;> cases h
    · intro n h; cases h <;> (unfold OneLine; decide)
    · intro p h; cases h
    · intro f hf c i h p hp
      obtain ⟨_, h2, _⟩ := refOk_iff.mp ((hok.input.funcs f hf).refers h)
      cases records_iff.mp hp
      have key : ∀ q ∈ sampleU, '\n' ∉ ((Dumper.cenv winEnv .linux none winElf).src.mapping q).getD q := by decide
      exact key _ h2
    · intro f hf t h
      simp only [win1, win2, List.mem_cons, Option.some.injEq, List.not_mem_nil, or_false] at hf
      subst hf
      cases (shown_demangle (Dumper.cenv winEnv .linux none winElf) _ _).mp h
      unfold OneLine; decide
    · intro ps hps p hp t k ht
      rcases hps with rfl | hps
      · cases hp
      · obtain ⟨r, h1, h2⟩ := (embeds_iff hok.embedded ps).mp hps
        cases h1; subst h2; cases hp
    · intro hs h; cases h
    · rintro t (h | ⟨q, h, _⟩) <;> cases h
      exact ⟨[str% "CFI 1"], rfl, by intro l hl; simp at hl; subst hl; unfold OneLine; decide⟩

theorem winDisk3_sane : Sane winEnv2 winDisk3.disk := by
  have h := winCrash_sane [(str% "C:\\d\\a", .file [1] true), (str% "C:\\d\\b", .file [1, 1] true), (str% "C:\\d\\c", .file [4, 1] true)] (by
    intro x hx es
    simp only [List.mem_cons, List.not_mem_nil, or_false] at hx
    rcases hx with rfl | rfl | rfl <;> (intro h; cases h))
  exact ⟨h.dirs, h.room, h.arrivals, h.cwd, h.home⟩

theorem winNoServer : ∀ servers, getSymServers winEnv2.home winDisk3.disk none ≠ .ok (some servers) := by
  intro servers h
  have : getSymServers winEnv2.home winDisk3.disk none = .ok none := by decide +kernel
  rw [this] at h; cases h

theorem winInputs_each {w : Cache.World} (hw : Meanwhile winEnv2 winDisk3 w) {x : Input} (hx : x ∈ winInputs) :
    InputOk x winEnv2 none (str% "x86_64") w [] := by
  have hdisk := hw.same_disk winNoServer
  obtain ⟨disk, log⟩ := w
  cases hdisk
  clear hw
  have hok := winInputs_ok hx
  have hplain := winInputs_plain hx
  simp only [winInputs, List.mem_cons, List.not_mem_nil, or_false] at hx
  have hca : SaneCaches winEnv2 none winDisk3.disk := fun ss h =>
    absurd (((C110_configured winEnv2.home winDisk3.disk none winPair_sane.home).1 _).mpr h) (winNoServer ss)
  have hc : x.Clear winEnv2 none [] := by
    refine ⟨⟨_, _, _, hok⟩, hplain, (by intro _ _ l hl; cases hl), (embeds_iff hok.embedded _).mpr ⟨none, ?_, ?_⟩⟩ <;>
      (rcases hx with rfl | rfl | rfl <;> rfl)
  rcases hx with rfl | rfl | rfl
  · have hr : PathHolds winEnv2.net.cab winDisk3.disk (str% "C:\\d\\" ++ str% "a") [1] :=
      ((readFile_dir winEnv2.net.cab winDisk3.disk winGone_dir (winProper_of (by decide)) winDisk3_sane.dirs).1 _).mp (by decide +kernel)
    exact ⟨winGone_dir, winProper_of (by decide), hr, (fun _ _ h => by cases h), hca, ⟨_, .elf _ rfl rfl⟩, hc, (by
      intro last h
      cases h.unique (show AfterLast '/' _ (str% "lib.so") from ⟨by decide, str% "dir/", rfl, .inr rfl⟩)
      exact winProper_of (by decide)), winProper_of (by decide)⟩
  · have hr : PathHolds winEnv2.net.cab winDisk3.disk (str% "C:\\d\\" ++ str% "b") [1, 1] :=
      ((readFile_dir winEnv2.net.cab winDisk3.disk winGone_dir (winProper_of (by decide)) winDisk3_sane.dirs).1 _).mp (by decide +kernel)
    exact ⟨winGone_dir, winProper_of (by decide), hr, (fun _ _ h => by cases h), hca, ⟨_, .elf _ rfl rfl⟩, hc, (by
      intro last h
      cases h.unique (show AfterLast '/' _ (str% "lib.so") from ⟨by decide, str% "dir/", rfl, .inr rfl⟩)
      exact winProper_of (by decide)), winProper_of (by decide)⟩
  · have hr : PathHolds winEnv2.net.cab winDisk3.disk (str% "C:\\d\\" ++ str% "c") [4, 1] :=
      ((readFile_dir winEnv2.net.cab winDisk3.disk winGone_dir (winProper_of (by decide)) winDisk3_sane.dirs).1 _).mp (by decide +kernel)
    exact ⟨winGone_dir, winProper_of (by decide), hr, (fun _ _ h => by cases h), hca, ⟨_, .machoOnly _ rfl rfl⟩, hc, (by
      intro last h
      cases h.unique (show AfterLast '/' _ (str% "c") from ⟨by decide, [], rfl, .inl rfl⟩)
      exact winProper_of (by decide)), winProper_of (by decide)⟩

theorem winSeveral : Several winEnv2 (str% "1.0") winOptions3 winInputs winDisk3 exOrders none (str% "x86_64") 2 (str% "D:\\") where
  sha := by
    intro d b hb
    obtain ⟨x, _, rfl⟩ := List.mem_map.mp hb
    omega
  order := fun l => List.reverse_perm l
  noList := rfl
  files := rfl
  notOne := by decide
  info := by intro v hv; cases hv
  lines := by intro l hl; cases hl
  sane := winDisk3_sane
  plain := by
    intro d hd _
    cases hd
    exact winD_plain
  results := fun t => .refl _
  hashes := fun l t => .refl _
  rules := rfl
  knownArch := rfl
  each := fun w hw x hx => winInputs_each hw hx
  size := by
    intro x hx m hm
    obtain ⟨i, hi⟩ := List.mem_iff_getElem?.mp hx
    rcases winDumps hi hm with ⟨_, rfl⟩ | ⟨_, rfl⟩ | ⟨_, rfl⟩ <;> decide +kernel
  below := by decide
  cfi := by
    intro _ x hx
    simp only [winInputs, List.mem_cons, List.not_mem_nil, or_false] at hx
    rcases hx with rfl | rfl | rfl <;> decide
  store := rfl
  named := by decide
  output := by intro f h; cases h
  parts := by simp [winEnv2, winEnv, Dumper.exEnv, Output.goodDisk, Output.fullDisk]
  mkdirs := fun _ => rfl
  create := fun _ => rfl
  room := by
    intro l m t hm ht fo
    have hb : Run.lengthOf wd0 ≤ 1000000 ∧ Run.lengthOf wd1 ≤ 1000000 ∧ Run.lengthOf wd2 ≤ 1000000 ∧ Run.lengthOf wd01 ≤ 1000000 ∧ Run.lengthOf wd10 ≤ 1000000 := by
      decide +kernel
    have ht' : m.display (some []) = .ok t := ht
    have hl : Run.lengthOf m ≤ 1000000 := by
      rcases winPossible hm with ⟨_, rfl⟩ | ⟨_, rfl⟩ | ⟨_, rfl⟩ | ⟨_, rfl⟩ | ⟨_, rfl⟩ <;> simp [hb]
    unfold Run.lengthOf at hl
    rw [ht'] at hl
    exact hl

def winConfig3 : Config := match actionOf 4 winOptions3 with | .dump c => c | _ => Dumper.exConfig
def winThreads3 : Threads.Env := threads winEnv2 (some []) winConfig3 winThree (fun _ => winDisk3) exOrders none (str% "x86_64") Output.emptyWorld

/-- The first worker reads two of the files and hands a module to the other one. -/
def exRun3 : List Threads.Action := List.replicate 3 .send ++ steps 0 18 ++ steps 1 1 ++ steps 0 5 ++ steps 1 2 ++ [.join, .join]

def winLast3 : Threads.Moment :=
  played winThreads3 (callsOf winEnv2.io (some []) winConfig3.output winConfig3.checkCfi) Output.emptyWorld (whole exRun3)

theorem winRun3_exits : Exits winEnv2 (str% "1.0") 4 winOptions3 winDisk3 exOrders Output.emptyWorld 0 winLast3.out :=
  .acts [] (.ok ()) _ rfl (.several winConfig3 (fun _ => winDisk3) (.ok ()) _ (by decide) (fun _ => .start) (.returned none (str% "x86_64") winLast3 rfl
    (played_moments (by decide +kernel)) (by decide +kernel)))

theorem winRules {rules : List Mapping.Rule}
    (h : Mapping.Configured winEnv2.map winOptions3.mappingVar winOptions3.mappingSrc winOptions3.mappingDest winOptions3.mappingFile rules) :
    rules = [] := by
  obtain ⟨cli, a, b, _, e, _, h, _⟩ := h
  obtain ⟨rfl, rfl⟩ := h rfl
  exact e

theorem winFrames0 {on : Nat → Nat → Prop} {frames : Nat → Option (List Frame)} (h : (win0.source winEnv2 none [] true).Answers on frames)
    (hon : on 0x2000 0x2004) : frames 0x2004 = some [⟨str% "b()", some (str% "/c/y.c"), 20⟩] := by
  have hwf : mB1.WF := .mk _ (by decide) (by decide) (by simp [mB1, Func.inlinees]) (by decide) (by simp [mB1, Func.inlinees])
  obtain ⟨shown, f1, f2⟩ := h.nested rfl 0x2000 0x2004 mB1
    ⟨⟨[], rfl⟩, by decide, by decide, by decide, by
      intro b h1 h2
      have : b = 0x2001 ∨ b = 0x2002 ∨ b = 0x2003 ∨ b = 0x2004 := by omega
      rcases this with rfl | rfl | rfl | rfl <;> rfl⟩
    hon hwf (.mk _ (by simp [mB1, Func.inlinees]) (by simp [mB1, Func.inlinees])) (by decide) (str% "b()")
    ((shown_demangle sampleCEnv _ _).mpr rfl) (fun _ _ => str% "/c/y.c") (printedOrigin sampleCEnv) ⟨by
      intro f hf c r hr q hq
      obtain ⟨p, e1, e2⟩ := hq
      have hf' : some f ∈ [some mB1] := hf
      simp only [List.mem_cons, Option.some.injEq, List.not_mem_nil, or_false] at hf'
      subst hf'
      cases records_iff.mp (Run.cenv_records (mapping := none).mpr e1)
      cases hr with
      | inlined _ g _ _ hg => simp [mB1, Func.inlinees] at hg
      | here _ l hl =>
        simp only [mB1, Func.lines, List.mem_cons, List.not_mem_nil, or_false] at hl
        subst hl
        rcases e2 with ⟨pre, rule, post, h, _⟩ | ⟨_, h⟩
        · simp at h
        · rw [h]; decide, ((printed_iff sampleCEnv (printedPath sampleCEnv) _).mpr ⟨rfl, rfl⟩).nameOf⟩
    ⟨0x2000, some 16, sampleFile3, 20⟩ sampleComp (.self _ _ _ (by simp [mB1, Func.lines]) ⟨by decide, by decide⟩ (by simp [mB1, Func.inlinees]))
    [] (.nil _ _ (by simp [mB1, Func.inlinees]))
  rcases f1 with rfl | ⟨h, _⟩
  · exact f2
  · cases h

theorem winFrames1 {on : Nat → Nat → Prop} {frames : Nat → Option (List Frame)} (h : (win1.source winEnv2 none [] true).Answers on frames)
    (hon : on 0x3000 0x3004) : frames 0x3004 = some [⟨str% "c1()", some (str% "/c/y.c"), 31⟩] := by
  have hwf : mC1.WF := .mk _ (by decide) (by decide) (by simp [mC1, Func.inlinees]) (by decide) (by simp [mC1, Func.inlinees])
  obtain ⟨shown, f1, f2⟩ := h.nested rfl 0x3000 0x3004 mC1
    ⟨⟨[], rfl⟩, by decide, by decide, by decide, by
      intro b h1 h2
      have : b = 0x3001 ∨ b = 0x3002 ∨ b = 0x3003 ∨ b = 0x3004 := by omega
      rcases this with rfl | rfl | rfl | rfl <;> rfl⟩
    hon hwf (.mk _ (by simp [mC1, Func.inlinees]) (by simp [mC1, Func.inlinees])) (by decide) (str% "c1()")
    ((shown_demangle sampleCEnv _ _).mpr rfl) (fun _ _ => str% "/c/y.c") (printedOrigin sampleCEnv) ⟨by
      intro f hf c r hr q hq
      obtain ⟨p, e1, e2⟩ := hq
      have hf' : some f ∈ [some mC1] := hf
      simp only [List.mem_cons, Option.some.injEq, List.not_mem_nil, or_false] at hf'
      subst hf'
      cases records_iff.mp (Run.cenv_records (mapping := none).mpr e1)
      cases hr with
      | inlined _ g _ _ hg => simp [mC1, Func.inlinees] at hg
      | here _ l hl =>
        simp only [mC1, Func.lines, List.mem_cons, List.not_mem_nil, or_false] at hl
        subst hl
        rcases e2 with ⟨pre, rule, post, h, _⟩ | ⟨_, h⟩
        · simp at h
        · rw [h]; decide, ((printed_iff sampleCEnv (printedPath sampleCEnv) _).mpr ⟨rfl, rfl⟩).nameOf⟩
    ⟨0x3000, some 16, sampleFile3, 31⟩ sampleComp (.self _ _ _ (by simp [mC1, Func.lines]) ⟨by decide, by decide⟩ (by simp [mC1, Func.inlinees]))
    [] (.nil _ _ (by simp [mC1, Func.inlinees]))
  rcases f1 with rfl | ⟨h, _⟩
  · exact f2
  · cases h

theorem winFrames2 {on : Nat → Nat → Prop} {frames : Nat → Option (List Frame)} (h : (win2.source winEnv2 none [] true).Answers on frames)
    (hon : on 0x2000 0x2004) : frames 0x2004 = some [⟨str% "b()", some (str% "/c/y.c"), 20⟩] := by
  have hwf : mB1.WF := .mk _ (by decide) (by decide) (by simp [mB1, Func.inlinees]) (by decide) (by simp [mB1, Func.inlinees])
  obtain ⟨shown, f1, f2⟩ := h.nested rfl 0x2000 0x2004 mB1
    ⟨⟨[], rfl⟩, by decide, by decide, by decide, by
      intro b h1 h2
      have : b = 0x2001 ∨ b = 0x2002 ∨ b = 0x2003 ∨ b = 0x2004 := by omega
      rcases this with rfl | rfl | rfl | rfl <;> rfl⟩
    hon hwf (.mk _ (by simp [mB1, Func.inlinees]) (by simp [mB1, Func.inlinees])) (by decide) (str% "b()")
    ((shown_demangle sampleCEnv _ _).mpr rfl) (fun _ _ => str% "/c/y.c") (printedOrigin sampleCEnv) ⟨by
      intro f hf c r hr q hq
      obtain ⟨p, e1, e2⟩ := hq
      have hf' : some f ∈ [some mB1] := hf
      simp only [List.mem_cons, Option.some.injEq, List.not_mem_nil, or_false] at hf'
      subst hf'
      cases records_iff.mp (Run.cenv_records (mapping := none).mpr e1)
      cases hr with
      | inlined _ g _ _ hg => simp [mB1, Func.inlinees] at hg
      | here _ l hl =>
        simp only [mB1, Func.lines, List.mem_cons, List.not_mem_nil, or_false] at hl
        subst hl
        rcases e2 with ⟨pre, rule, post, h, _⟩ | ⟨_, h⟩
        · simp at h
        · rw [h]; decide, ((printed_iff sampleCEnv (printedPath sampleCEnv) _).mpr ⟨rfl, rfl⟩).nameOf⟩
    ⟨0x2000, some 16, sampleFile3, 20⟩ sampleComp (.self _ _ _ (by simp [mB1, Func.lines]) ⟨by decide, by decide⟩ (by simp [mB1, Func.inlinees]))
    [] (.nil _ _ (by simp [mB1, Func.inlinees]))
  rcases f1 with rfl | ⟨h, _⟩
  · exact f2
  · cases h

/-- C122 applied: the third input is alone with its debug id, and the symbol file at its place in the store says that address `0x2004` is
in line 20 of `b`. -/
example : ∃ text file p out', Exits winEnv2 (str% "1.0") 4 winOptions3 winDisk3 exOrders Output.emptyWorld 0 out' ∧
    InStore (str% "D:\\") (str% "c") (str% "D1") p ∧ out'.files p = some (Utf8.encode text) ∧ readSymFile text = some file ∧
    file.modules = [(str% "Mac", str% "arm64", str% "D1", str% "c")] ∧
    file.framesAt 0x2004 = some [⟨str% "b()", some (str% "/c/y.c"), 20⟩] := by
  obtain ⟨rules, h1, h2⟩ := C122_several winEnv2 (str% "1.0") 4 winOptions3 winInputs winDisk3 exOrders none (str% "x86_64") 2 (str% "D:\\") winSeveral
    Output.emptyWorld
  obtain ⟨_, h3⟩ := h2 _ _ winRun3_exits
  obtain ⟨l, m, text, file, p, os, cpu, name, _, _, _, k1, k2, k3, k4, k5⟩ := h3 2 win2 rfl
  have h5 := k5 (by
    intro j y hj hy
    match j with
    | 0 => cases hj; exact absurd hy (by decide)
    | 1 => cases hj; exact absurd hy (by decide)
    | 2 => rfl
    | j + 3 => cases hj)
  have hrules := winRules h1
  subst hrules
  obtain ⟨last, e1, e2⟩ := h5.module
  have hlast : last = str% "c" := e1.unique ⟨by decide, [], rfl, .inl rfl⟩
  subst hlast
  have := k2.symm.trans e2
  cases this
  exact ⟨text, file, p, _, winRun3_exits, k3, k4, k1, k2, winFrames2 h5.answers trivial⟩

/-- C122 applied to the two inputs with one debug id: their place in the store holds one symbol file, with the lines of both. -/
example : ∃ text file p name out', Exits winEnv2 (str% "1.0") 4 winOptions3 winDisk3 exOrders Output.emptyWorld 0 out' ∧
    InStore (str% "D:\\") name (str% "E1") p ∧ out'.files p = some (Utf8.encode text) ∧ readSymFile text = some file ∧
    file.framesAt 0x2004 = some [⟨str% "b()", some (str% "/c/y.c"), 20⟩] ∧
    file.framesAt 0x3004 = some [⟨str% "c1()", some (str% "/c/y.c"), 31⟩] := by
  obtain ⟨rules, h1, h2⟩ := C122_disjoint winEnv2 (str% "1.0") 4 winOptions3 winInputs winDisk3 exOrders none (str% "x86_64") 2 (str% "D:\\") winSeveral
    Output.emptyWorld
  have hrules := winRules h1
  subst hrules
  have hthird : ∀ (g : Nat) (z : Input), winInputs[g]? = some z → z.obj.debugId = str% "E1" → g = 0 ∨ g = 1 := by
    intro g z hg hz
    match g with
    | 0 => exact .inl rfl
    | 1 => exact .inr rfl
    | 2 => cases hg; exact absurd hz (by decide)
    | g + 3 => cases hg
  obtain ⟨text, file, p, os, cpu, name, k1, _, k3, k4, k5, k6⟩ := h2 _ _ winRun3_exits 0 1 win0 win1 (by decide) rfl rfl rfl hthird (.inl rfl)
  refine ⟨text, file, p, name, _, winRun3_exits, k3, k4, k1, winFrames0 k5 ?_, winFrames1 k6 ?_⟩
  · intro b h1 h2 h
    have : b = 0x2000 ∨ b = 0x2001 ∨ b = 0x2002 ∨ b = 0x2003 ∨ b = 0x2004 := by omega
    rcases h with h | ⟨h, _⟩
    · rcases this with rfl | rfl | rfl | rfl | rfl <;> exact h rfl
    · cases h
  · intro b h1 h2 h
    have : b = 0x3000 ∨ b = 0x3001 ∨ b = 0x3002 ∨ b = 0x3003 ∨ b = 0x3004 := by omega
    rcases h with h | ⟨h, _⟩
    · rcases this with rfl | rfl | rfl | rfl | rfl <;> exact h rfl
    · cases h

/-! ## Two files with one debug id and an output file -/

def winOptions2 : Options :=
  { Run.exOptions [str% "C:\\d\\a", str% "C:\\d\\b"] with numJobs := str% "2", inlines := true, checkCfi := true, store := none, output := some (str% "C:\\o.sym") }

theorem winPossible2 {l : List Nat} {m : ObjectInfo} (h : Possible winEnv2 none true exOrders.tables [win0, win1] l m) :
    Possible winEnv2 none true exOrders.tables winInputs l m := by
  have hin : ∀ {i : Nat} {x : Input}, [win0, win1][i]? = some x → winInputs[i]? = some x := by
    intro i x hi
    match i with
    | 0 => exact hi
    | 1 => exact hi
    | i + 2 => cases hi
  induction h with
  | one i x m hi hm => exact .one i x m (hin hi) hm
  | more i l x m p c hi hm hl hp hc ih => exact .more i l x m p c (hin hi) hm hl ih hc

theorem winWorkable : Workable winEnv2 (str% "1.0") winOptions2 [win0, win1] winDisk3 exOrders none (str% "x86_64") 2 := by
  have hsub : ∀ x, x ∈ [win0, win1] → x ∈ winInputs := by
    intro x hx
    simp only [List.mem_cons, List.not_mem_nil, or_false] at hx
    simp only [winInputs, List.mem_cons]
    rcases hx with rfl | rfl <;> simp
  have h := winSeveral
  exact {
    sha := h.sha
    order := h.order
    noList := rfl
    files := rfl
    notOne := by decide
    info := by intro v hv; cases hv
    lines := by intro l hl; cases hl
    sane := h.sane
    plain := by intro d hd; cases hd
    results := h.results
    hashes := h.hashes
    rules := rfl
    knownArch := rfl
    each := fun w hw x hx => h.each w hw x (hsub x hx)
    size := fun x hx => h.size x (hsub x hx)
    below := by decide
    cfi := fun _ x hx => h.cfi rfl x (hsub x hx)
    parts := h.parts
    mkdirs := h.mkdirs
    create := h.create
    room := fun l m t hm => h.room l m t (winPossible2 hm) }

def winConfig2 : Config := match actionOf 4 winOptions2 with | .dump c => c | _ => Dumper.exConfig
def winThreads2 : Threads.Env := threads winEnv2 (some []) winConfig2 winOptions2.filenames (fun _ => winDisk3) exOrders none (str% "x86_64") Output.emptyWorld
def exRun2 : List Threads.Action := [.send, .send] ++ steps 0 12 ++ steps 1 1 ++ steps 0 3 ++ [.join, .join]

def winLast2 : Threads.Moment :=
  played winThreads2 (callsOf winEnv2.io (some []) winConfig2.output winConfig2.checkCfi) Output.emptyWorld (whole exRun2)

theorem winRun2_exits : Exits winEnv2 (str% "1.0") 4 winOptions2 winDisk3 exOrders Output.emptyWorld 0 winLast2.out :=
  .acts [] (.ok ()) _ rfl (.several winConfig2 (fun _ => winDisk3) (.ok ()) _ (by decide) (fun _ => .start) (.returned none (str% "x86_64") winLast2 rfl
    (played_moments (by decide +kernel)) (by decide +kernel)))

/-- C122 applied: the output file holds one symbol file, with the lines of both inputs. -/
example : ∃ text file out', Exits winEnv2 (str% "1.0") 4 winOptions2 winDisk3 exOrders Output.emptyWorld 0 out' ∧
    out'.files (str% "C:\\o.sym") = some (Utf8.encode text) ∧ readSymFile text = some file ∧
    file.framesAt 0x2004 = some [⟨str% "b()", some (str% "/c/y.c"), 20⟩] ∧
    file.framesAt 0x3004 = some [⟨str% "c1()", some (str% "/c/y.c"), 31⟩] := by
  obtain ⟨rules, h1, h2⟩ := C122_pair winEnv2 (str% "1.0") 4 winOptions2 win0 win1 winDisk3 exOrders none (str% "x86_64") 2 winWorkable rfl (.inl rfl)
    Output.emptyWorld
  have hrules := winRules h1
  subst hrules
  obtain ⟨_, text, file, os, cpu, name, k1, _, k4, k5, k6⟩ := h2 _ _ winRun2_exits
  refine ⟨text, file, _, winRun2_exits, k4 (.path (str% "C:\\o.sym")) (.inr (.inr (.inl ⟨_, rfl, by decide, rfl⟩))), k1, winFrames0 k5 ?_, winFrames1 k6 ?_⟩
  · intro b h1 h2 h
    have : b = 0x2000 ∨ b = 0x2001 ∨ b = 0x2002 ∨ b = 0x2003 ∨ b = 0x2004 := by omega
    rcases h with h | ⟨h, _⟩
    · rcases this with rfl | rfl | rfl | rfl | rfl <;> exact h rfl
    · cases h
  · intro b h1 h2 h
    have : b = 0x3000 ∨ b = 0x3001 ∨ b = 0x3002 ∨ b = 0x3003 ∨ b = 0x3004 := by omega
    rcases h with h | ⟨h, _⟩
    · rcases this with rfl | rfl | rfl | rfl | rfl <;> exact h rfl
    · cases h

/-- The example of C122: three inputs, two jobs. -/
example : ∃ code out', Exits winEnv2 (str% "1.0") 4 winOptions3 winDisk3 exOrders Output.emptyWorld code out' :=
  (C122_can_end_iff _ _ _ _ winInputs _ _ none (str% "x86_64") 2 winSeveral.toWorkable _ 2 (.inl ⟨['2'], .inl rfl, by decide, by decide, by decide, by decide⟩)
    (by decide)).mpr (.inl (by decide))

/-- The number of jobs has no part in what is required of the inputs. -/
theorem Workable.withJobs {env : Dumper.Env} {version : Str} {o : Options} {inputs : List Input} {w : Cache.World} {orders : Orders}
    {mapping : Option (List Mapping.Generator)} {arch : Str} {k : Nat} (h : Workable env version o inputs w orders mapping arch k) (j : Str) :
    Workable env version { o with numJobs := j } inputs w orders mapping arch k where
  sha := h.sha
  order := h.order
  noList := h.noList
  files := h.files
  notOne := h.notOne
  info := h.info
  lines := h.lines
  sane := h.sane
  plain := h.plain
  results := h.results
  hashes := h.hashes
  rules := h.rules
  knownArch := h.knownArch
  each := h.each
  size := h.size
  below := h.below
  cfi := h.cfi
  parts := h.parts
  mkdirs := h.mkdirs
  create := h.create
  room := h.room

/-- The same three inputs with one job: they have two debug ids, and the program never ends. -/
example : ¬ ∃ code out', Exits winEnv2 (str% "1.0") 4 { winOptions3 with numJobs := ['1'] } winDisk3 exOrders Output.emptyWorld code out' := by
  rw [C122_can_end_iff _ _ _ _ winInputs _ _ none (str% "x86_64") 2 (winSeveral.toWorkable.withJobs _) _ 1 (.inl numeral1) (by decide)]
  rintro (h | ⟨_, h⟩)
  · exact absurd h (by decide)
  · exact absurd (h win0 (by simp [winInputs]) win2 (by simp [winInputs])) (by decide)

/-- The two inputs that make up one module, with one job: the program can end. -/
example : ∃ code out', Exits winEnv2 (str% "1.0") 4 { winOptions2 with numJobs := ['1'] } winDisk3 exOrders Output.emptyWorld code out' := by
  rw [C122_can_end_iff _ _ _ _ [win0, win1] _ _ none (str% "x86_64") 2 (winWorkable.withJobs _) _ 1 (.inl numeral1) (by decide)]
  refine .inr ⟨rfl, fun x hx y hy => ?_⟩
  simp only [List.mem_cons, List.not_mem_nil, or_false] at hx hy
  rcases hx with rfl | rfl <;> rcases hy with rfl | rfl <;> rfl

end WinHost
end DumpSyms
