import Verif.Props.Several
/-!
# C85: a run over three files

Two of them make up one module.
-/
namespace DumpSyms
open ObjectInfo Collector Reader

namespace Run
open Dumper Threads

/-- Another part of the module of `exElf`. -/
def exElf2 : ObjInput :=
  { objOf (str% "E1") true [mC1] [] with format := .elf, arch := str% "x86_64", name := some (str% "dir/lib.so"), kind := .other }
def exMach : ObjInput := exObj .machO (str% "D1") (str% "arm64") none

def exEnv2 : Dumper.Env := { exEnv with parsers := { exParsers with elf := fun b => if b = [1, 1] then .ok exElf2 else exParsers.elf b } }
def exThree : List Str := [str% "/d/a", str% "/d/b", str% "/d/c"]
def exDisk3 : Cache.World := exWorld [(str% "/d/a", .file [1] true), (str% "/d/b", .file [1, 1] true), (str% "/d/c", .file [4, 1] true)]
def exOptions3 : Options := { exOptions exThree with numJobs := str% "2", inlines := true, checkCfi := true }

def in0 : Input := ⟨str% "/d/", str% "a", [1], exElf, str% "a", none, none, .linux, true, [some mB1], []⟩
def in1 : Input := ⟨str% "/d/", str% "b", [1, 1], exElf2, str% "b", none, none, .linux, true, [some mC1], []⟩
def in2 : Input := ⟨str% "/d/", str% "c", [4, 1], exMach, str% "c", none, none, .mac, true, [some mB1], []⟩
def exInputs : List Input := [in0, in1, in2]

def d0 : ObjectInfo := theObj (fromObject (in0.cenv exEnv2 none) true .linux exElf (str% "a") none none)
def d1 : ObjectInfo := theObj (fromObject (in1.cenv exEnv2 none) true .linux exElf2 (str% "b") none none)
def d2 : ObjectInfo := theObj (fromObject (in2.cenv exEnv2 none) true .mac exMach (str% "c") none none)
def d01 : ObjectInfo := theObj (ObjectInfo.merge id d0 d1)
def d10 : ObjectInfo := theObj (ObjectInfo.merge id d1 d0)

theorem exDumps {i : Nat} {x : Input} {m : ObjectInfo} (hi : exInputs[i]? = some x) (h : x.Dumps exEnv2 none true m) :
    i = 0 ∧ m = d0 ∨ i = 1 ∧ m = d1 ∨ i = 2 ∧ m = d2 := by
  match i with
  | 0 => cases hi; cases h; exact .inl ⟨rfl, rfl⟩
  | 1 => cases hi; cases h; exact .inr (.inl ⟨rfl, rfl⟩)
  | 2 => cases hi; cases h; exact .inr (.inr ⟨rfl, rfl⟩)
  | i + 3 => cases hi

theorem exPossible {l : List Nat} {m : ObjectInfo} (h : Possible exEnv2 none true exOrders.tables exInputs l m) :
    (l = [0] ∧ m = d0) ∨ (l = [1] ∧ m = d1) ∨ (l = [2] ∧ m = d2) ∨ (l = [0, 1] ∧ m = d01) ∨ (l = [1, 0] ∧ m = d10) := by
  have hid : d0.debugId = str% "E1" ∧ d1.debugId = str% "E1" ∧ d2.debugId = str% "D1" ∧ d01.debugId = str% "E1" ∧ d10.debugId = str% "E1" := by
    decide +kernel
  obtain ⟨i0, i1, i2, i01, i10⟩ := hid
  induction h with
  | one i x m hi hm => rcases exDumps hi hm with ⟨rfl, rfl⟩ | ⟨rfl, rfl⟩ | ⟨rfl, rfl⟩ <;> simp
  | more i l x m p c hi hm hl hp hc ih =>
    have he := (merge_ok hc).1
    rcases exDumps hi hm with ⟨rfl, rfl⟩ | ⟨rfl, rfl⟩ | ⟨rfl, rfl⟩ <;>
      rcases ih with ⟨rfl, rfl⟩ | ⟨rfl, rfl⟩ | ⟨rfl, rfl⟩ | ⟨rfl, rfl⟩ | ⟨rfl, rfl⟩ <;>
      first
      | exact absurd hl (by decide)
      | (rw [i0, i2] at he; exact absurd he (by decide))
      | (rw [i1, i2] at he; exact absurd he (by decide))
      | (rw [i2, i01] at he; exact absurd he (by decide))
      | (rw [i2, i10] at he; exact absurd he (by decide))
      | (have e : ObjectInfo.merge id d0 d1 = .ok d01 := rfl
         have := e.symm.trans hc
         cases this
         simp
         done)
      | (have e : ObjectInfo.merge id d1 d0 = .ok d10 := rfl
         have := e.symm.trans hc
         cases this
         simp)

theorem exInputs_ok {x : Input} (hx : x ∈ exInputs) : ObjOk (x.cenv exEnv2 none) sampleMem sampleU sampleV x.platform x.obj x.fs := by
  simp only [exInputs, List.mem_cons, List.not_mem_nil, or_false] at hx
  rcases hx with rfl | rfl | rfl
  case inl => exact exElf_ok _ rfl
  all_goals
    refine ⟨rfl, ⟨by decide, by decide, sampleSort, ?_⟩, (by intro es h; cases h), (fun h => by cases h),
      embeddedInside_of_kind (by intro l h; cases h)⟩
    intro f hf
    simp only [in1, in2, List.mem_cons, Option.some.injEq, List.not_mem_nil, or_false] at hf
    subst hf
    refine .mk _ (fun l hl => ?_) (fun g hg => by cases hg) (fun g hg => by cases hg)
    simp only [Func.lines, mB1, mC1, List.mem_cons, List.not_mem_nil, or_false] at hl
    subst hl
    exact refOk_iff.mpr ⟨(sampleRef (f := sampleFile3) (by simp)).1, by decide +kernel, rfl⟩

theorem exInputs_plain {x : Input} (hx : x ∈ exInputs) : PlainTexts (x.cenv exEnv2 none) x.platform x.obj x.fs x.name x.pe x.peName := by
  have hok := exInputs_ok hx
  simp only [exInputs, List.mem_cons, List.not_mem_nil, or_false] at hx
  rcases hx with rfl | rfl | rfl
  case inl => exact exElf_plain
  all_goals
    refine ⟨by unfold Unbroken; decide, by unfold Unbroken; decide, ?_, by unfold OneLine; decide, ?_, ?_, ?_, ?_, ?_, ?_, ?_⟩
    · rintro c (h | ⟨q, h, _⟩) <;> cases h
    · intro n h; cases h <;> (unfold OneLine; decide)
    · intro p h; cases h
    · intro f hf c i h p hp
      obtain ⟨_, h2, _⟩ := refOk_iff.mp ((hok.input.funcs f hf).refers h)
      cases records_iff.mp hp
      have key : ∀ q ∈ sampleU, '\n' ∉ ((cenv exEnv .linux none exElf).src.mapping q).getD q := by decide
      exact key _ h2
    · intro f hf t h
      simp only [in1, in2, List.mem_cons, Option.some.injEq, List.not_mem_nil, or_false] at hf
      subst hf
      cases (shown_demangle (cenv exEnv .linux none exElf) _ _).mp h
      unfold OneLine; decide
    · intro ps hps p hp t k ht
      rcases hps with rfl | hps
      · cases hp
      · obtain ⟨r, h1, h2⟩ := (embeds_iff hok.embedded ps).mp hps
        cases h1; subst h2; cases hp
    · intro hs h; cases h
    · rintro t (h | ⟨q, h, _⟩) <;> cases h
      exact ⟨[str% "CFI 1"], rfl, by intro l hl; simp at hl; subst hl; unfold OneLine; decide⟩

theorem exDisk3_iff {q : Str} {n : Node} (h : exDisk3.disk q = some n) :
    q = str% "/d/a" ∧ n = .file [1] true ∨ q = str% "/d/b" ∧ n = .file [1, 1] true ∨ q = str% "/d/c" ∧ n = .file [4, 1] true := by
  simp only [exDisk3, exWorld, WinUtils.diskOf, List.lookup] at h
  split at h
  · rename_i e; cases h; exact .inl ⟨by simpa using e, rfl⟩
  · split at h
    · rename_i e; cases h; exact .inr (.inl ⟨by simpa using e, rfl⟩)
    · split at h
      · rename_i e; cases h; exact .inr (.inr ⟨by simpa using e, rfl⟩)
      · cases h

theorem exNoServer : ∀ servers, Cache.getSymServers exEnv2.home exDisk3.disk none ≠ .ok (some servers) := by
  intro servers h
  have : Cache.getSymServers exEnv2.home exDisk3.disk none = .ok none := by decide +kernel
  rw [this] at h; cases h

theorem exInputs_each {w : Cache.World} (hw : Meanwhile exEnv2 exDisk3 w) {x : Input} (hx : x ∈ exInputs) :
    x.Ok exEnv2 none (str% "x86_64") w [] := by
  have hdisk := hw.same_disk exNoServer
  obtain ⟨disk, log⟩ := w
  cases hdisk
  clear hw
  have hok := exInputs_ok hx
  have hplain := exInputs_plain hx
  simp only [exInputs, List.mem_cons, List.not_mem_nil, or_false] at hx
  rcases hx with rfl | rfl | rfl
  · exact ⟨.inr rfl, by unfold ProperComp; decide, ⟨_, str% "/d/", str% "a", _, .file [1] rfl, rfl, .inr rfl, by unfold ProperComp; decide, .plain rfl⟩,
      (fun _ _ h => by cases h), ⟨_, .elf _ rfl rfl⟩, ⟨_, _, _, hok⟩, hplain, (by intro _ _ l hl; cases hl),
      (embeds_iff hok.embedded []).mpr ⟨none, rfl, rfl⟩, by unfold ProperComp; decide⟩
  · exact ⟨.inr rfl, by unfold ProperComp; decide, ⟨_, str% "/d/", str% "b", _, .file [1, 1] rfl, rfl, .inr rfl, by unfold ProperComp; decide, .plain rfl⟩,
      (fun _ _ h => by cases h), ⟨_, .elf _ rfl rfl⟩, ⟨_, _, _, hok⟩, hplain, (by intro _ _ l hl; cases hl),
      (embeds_iff hok.embedded []).mpr ⟨none, rfl, rfl⟩, by unfold ProperComp; decide⟩
  · exact ⟨.inr rfl, by unfold ProperComp; decide, ⟨_, str% "/d/", str% "c", _, .file [4, 1] rfl, rfl, .inr rfl, by unfold ProperComp; decide, .plain rfl⟩,
      (fun _ _ h => by cases h), ⟨_, .machoOnly _ rfl rfl⟩, ⟨_, _, _, hok⟩, hplain, (by intro _ _ l hl; cases hl),
      (embeds_iff hok.embedded []).mpr ⟨none, rfl, rfl⟩, by unfold ProperComp; decide⟩

def lengthOf (m : ObjectInfo) : Nat := match m.display (some []) with | .ok t => (Utf8.encode t).length | _ => 0

theorem exSeveral : Several exEnv2 (str% "1.0") exOptions3 exInputs exDisk3 exOrders none (str% "x86_64") 2 (str% "/s") where
  sha := by
    intro d b hb
    obtain ⟨x, _, rfl⟩ := List.mem_map.mp hb
    omega
  order := fun l => List.reverse_perm l
  noList := rfl
  files := rfl
  notOne := by decide
  info := by intro v hv; cases hv
  lines := by intro l hl; cases hl
  sane := by
    refine ⟨?_, (fun u st raw p h => by cases h), (fun js j h => by cases h), .inr ⟨str% "/", str% "w", rfl, .inr rfl, by unfold ProperComp; decide⟩⟩
    intro q es h
    rcases exDisk3_iff h with ⟨_, h⟩ | ⟨_, h⟩ | ⟨_, h⟩ <;> cases h
  results := fun t => .refl _
  hashes := fun l t => .refl _
  rules := rfl
  knownArch := rfl
  each := fun w hw x hx => exInputs_each hw hx
  size := by
    intro x hx m hm
    obtain ⟨i, hi⟩ := List.mem_iff_getElem?.mp hx
    rcases exDumps hi hm with ⟨_, rfl⟩ | ⟨_, rfl⟩ | ⟨_, rfl⟩ <;> decide +kernel
  below := by decide
  cfi := by
    intro _ x hx
    simp only [exInputs, List.mem_cons, List.not_mem_nil, or_false] at hx
    rcases hx with rfl | rfl | rfl <;> decide
  store := rfl
  named := by decide
  output := by intro f h; cases h
  parts := by simp [exEnv2, exEnv, Output.goodDisk, Output.fullDisk]
  mkdirs := fun _ => rfl
  create := fun _ => rfl
  room := by
    intro l m t hm ht fo
    have hb : lengthOf d0 ≤ 1000000 ∧ lengthOf d1 ≤ 1000000 ∧ lengthOf d2 ≤ 1000000 ∧ lengthOf d01 ≤ 1000000 ∧ lengthOf d10 ≤ 1000000 := by
      decide +kernel
    have ht' : m.display (some []) = .ok t := ht
    have hl : lengthOf m ≤ 1000000 := by
      rcases exPossible hm with ⟨_, rfl⟩ | ⟨_, rfl⟩ | ⟨_, rfl⟩ | ⟨_, rfl⟩ | ⟨_, rfl⟩ <;> simp [hb]
    unfold lengthOf at hl
    rw [ht'] at hl
    exact hl

def exConfig3 : Config := match actionOf 4 exOptions3 with | .dump c => c | _ => exConfig
def exThreads3 : Threads.Env := threads exEnv2 (some []) exConfig3 exThree (fun _ => exDisk3) exOrders none (str% "x86_64") Output.emptyWorld

/-- The first worker reads two of the files and hands a module to the other one. -/
def exRun3 : List Threads.Action := List.replicate 3 .send ++ steps 0 18 ++ steps 1 1 ++ steps 0 5 ++ steps 1 2 ++ [.join, .join]

def exLast3 : Threads.Moment :=
  played exThreads3 (Output.callsOf exEnv2.io (some []) exConfig3.output exConfig3.checkCfi) Output.emptyWorld (whole exRun3)

theorem exRun3_exits : Exits exEnv2 (str% "1.0") 4 exOptions3 exDisk3 exOrders Output.emptyWorld 0 exLast3.out :=
  .acts [] (.ok ()) _ rfl (.several exConfig3 (fun _ => exDisk3) (.ok ()) _ (by decide) (fun _ => .start) (.returned none (str% "x86_64") exLast3 rfl
    (played_moments (by decide +kernel)) (by decide +kernel)))

theorem exRules {rules : List Mapping.Rule}
    (h : Mapping.Configured exEnv2.map exOptions3.mappingVar exOptions3.mappingSrc exOptions3.mappingDest exOptions3.mappingFile rules) :
    rules = [] := by
  obtain ⟨cli, a, b, _, e, _, h, _⟩ := h
  obtain ⟨rfl, rfl⟩ := h rfl
  exact e

theorem exFrames0 {on : Nat → Nat → Prop} {frames : Nat → Option (List Frame)} (h : (in0.source exEnv2 none [] true).Answers on frames)
    (hon : on 0x2000 0x2004) : frames 0x2004 = some [⟨str% "b()", some (str% "/c/y.c"), 20⟩] := by
  have hwf : mB1.WF := .mk _ (by decide) (by decide) (by simp [mB1, Func.inlinees]) (by decide) (by simp [mB1, Func.inlinees])
  obtain ⟨shown, f1, f2⟩ := h.nested rfl 0x2000 0x2004 mB1
    ⟨⟨[], rfl⟩, by decide, by decide, by decide, by
      intro b h1 h2
      have : b = 0x2001 ∨ b = 0x2002 ∨ b = 0x2003 ∨ b = 0x2004 := by omega
      rcases this with rfl | rfl | rfl | rfl <;> rfl⟩
    hon hwf (.mk _ (by simp [mB1, Func.inlinees]) (by simp [mB1, Func.inlinees])) (by decide) (str% "b()")
    ((shown_demangle sampleCEnv _ _).mpr rfl) (fun _ _ => str% "/c/y.c") (printedOrigin sampleCEnv) ⟨by
      intro f hf c r hr q hq
      obtain ⟨p, e1, e2⟩ := hq
      have hf' : some f ∈ [some mB1] := hf
      simp only [List.mem_cons, Option.some.injEq, List.not_mem_nil, or_false] at hf'
      subst hf'
      cases records_iff.mp (cenv_records (mapping := none).mpr e1)
      cases hr with
      | inlined _ g _ _ hg => simp [mB1, Func.inlinees] at hg
      | here _ l hl =>
        simp only [mB1, Func.lines, List.mem_cons, List.not_mem_nil, or_false] at hl
        subst hl
        rcases e2 with ⟨pre, rule, post, h, _⟩ | ⟨_, h⟩
        · simp at h
        · rw [h]; decide, ((printed_iff sampleCEnv (printedPath sampleCEnv) _).mpr ⟨rfl, rfl⟩).nameOf⟩
    ⟨0x2000, some 16, sampleFile3, 20⟩ sampleComp (.self _ _ _ (by simp [mB1, Func.lines]) ⟨by decide, by decide⟩ (by simp [mB1, Func.inlinees]))
    [] (.nil _ _ (by simp [mB1, Func.inlinees]))
  rcases f1 with rfl | ⟨h, _⟩
  · exact f2
  · cases h

theorem exFrames1 {on : Nat → Nat → Prop} {frames : Nat → Option (List Frame)} (h : (in1.source exEnv2 none [] true).Answers on frames)
    (hon : on 0x3000 0x3004) : frames 0x3004 = some [⟨str% "c1()", some (str% "/c/y.c"), 31⟩] := by
  have hwf : mC1.WF := .mk _ (by decide) (by decide) (by simp [mC1, Func.inlinees]) (by decide) (by simp [mC1, Func.inlinees])
  obtain ⟨shown, f1, f2⟩ := h.nested rfl 0x3000 0x3004 mC1
    ⟨⟨[], rfl⟩, by decide, by decide, by decide, by
      intro b h1 h2
      have : b = 0x3001 ∨ b = 0x3002 ∨ b = 0x3003 ∨ b = 0x3004 := by omega
      rcases this with rfl | rfl | rfl | rfl <;> rfl⟩
    hon hwf (.mk _ (by simp [mC1, Func.inlinees]) (by simp [mC1, Func.inlinees])) (by decide) (str% "c1()")
    ((shown_demangle sampleCEnv _ _).mpr rfl) (fun _ _ => str% "/c/y.c") (printedOrigin sampleCEnv) ⟨by
      intro f hf c r hr q hq
      obtain ⟨p, e1, e2⟩ := hq
      have hf' : some f ∈ [some mC1] := hf
      simp only [List.mem_cons, Option.some.injEq, List.not_mem_nil, or_false] at hf'
      subst hf'
      cases records_iff.mp (cenv_records (mapping := none).mpr e1)
      cases hr with
      | inlined _ g _ _ hg => simp [mC1, Func.inlinees] at hg
      | here _ l hl =>
        simp only [mC1, Func.lines, List.mem_cons, List.not_mem_nil, or_false] at hl
        subst hl
        rcases e2 with ⟨pre, rule, post, h, _⟩ | ⟨_, h⟩
        · simp at h
        · rw [h]; decide, ((printed_iff sampleCEnv (printedPath sampleCEnv) _).mpr ⟨rfl, rfl⟩).nameOf⟩
    ⟨0x3000, some 16, sampleFile3, 31⟩ sampleComp (.self _ _ _ (by simp [mC1, Func.lines]) ⟨by decide, by decide⟩ (by simp [mC1, Func.inlinees]))
    [] (.nil _ _ (by simp [mC1, Func.inlinees]))
  rcases f1 with rfl | ⟨h, _⟩
  · exact f2
  · cases h

theorem exFrames2 {on : Nat → Nat → Prop} {frames : Nat → Option (List Frame)} (h : (in2.source exEnv2 none [] true).Answers on frames)
    (hon : on 0x2000 0x2004) : frames 0x2004 = some [⟨str% "b()", some (str% "/c/y.c"), 20⟩] := by
  have hwf : mB1.WF := .mk _ (by decide) (by decide) (by simp [mB1, Func.inlinees]) (by decide) (by simp [mB1, Func.inlinees])
  obtain ⟨shown, f1, f2⟩ := h.nested rfl 0x2000 0x2004 mB1
    ⟨⟨[], rfl⟩, by decide, by decide, by decide, by
      intro b h1 h2
      have : b = 0x2001 ∨ b = 0x2002 ∨ b = 0x2003 ∨ b = 0x2004 := by omega
      rcases this with rfl | rfl | rfl | rfl <;> rfl⟩
    hon hwf (.mk _ (by simp [mB1, Func.inlinees]) (by simp [mB1, Func.inlinees])) (by decide) (str% "b()")
    ((shown_demangle sampleCEnv _ _).mpr rfl) (fun _ _ => str% "/c/y.c") (printedOrigin sampleCEnv) ⟨by
      intro f hf c r hr q hq
      obtain ⟨p, e1, e2⟩ := hq
      have hf' : some f ∈ [some mB1] := hf
      simp only [List.mem_cons, Option.some.injEq, List.not_mem_nil, or_false] at hf'
      subst hf'
      cases records_iff.mp (cenv_records (mapping := none).mpr e1)
      cases hr with
      | inlined _ g _ _ hg => simp [mB1, Func.inlinees] at hg
      | here _ l hl =>
        simp only [mB1, Func.lines, List.mem_cons, List.not_mem_nil, or_false] at hl
        subst hl
        rcases e2 with ⟨pre, rule, post, h, _⟩ | ⟨_, h⟩
        · simp at h
        · rw [h]; decide, ((printed_iff sampleCEnv (printedPath sampleCEnv) _).mpr ⟨rfl, rfl⟩).nameOf⟩
    ⟨0x2000, some 16, sampleFile3, 20⟩ sampleComp (.self _ _ _ (by simp [mB1, Func.lines]) ⟨by decide, by decide⟩ (by simp [mB1, Func.inlinees]))
    [] (.nil _ _ (by simp [mB1, Func.inlinees]))
  rcases f1 with rfl | ⟨h, _⟩
  · exact f2
  · cases h

/-- C85 applied: the third input is alone with its debug id, and the symbol file at its place in the store says that address `0x2004` is
in line 20 of `b`. -/
example : ∃ text file p out', Exits exEnv2 (str% "1.0") 4 exOptions3 exDisk3 exOrders Output.emptyWorld 0 out' ∧
    InStore (str% "/s") (str% "c") (str% "D1") p ∧ out'.files p = some (Utf8.encode text) ∧ readSymFile text = some file ∧
    file.modules = [(str% "Mac", str% "arm64", str% "D1", str% "c")] ∧
    file.framesAt 0x2004 = some [⟨str% "b()", some (str% "/c/y.c"), 20⟩] := by
  obtain ⟨rules, h1, h2⟩ := C85_several exEnv2 (str% "1.0") 4 exOptions3 exInputs exDisk3 exOrders none (str% "x86_64") 2 (str% "/s") exSeveral
    Output.emptyWorld
  obtain ⟨_, h3⟩ := h2 _ _ exRun3_exits
  obtain ⟨l, m, text, file, p, os, cpu, name, _, _, _, k1, k2, k3, k4, k5⟩ := h3 2 in2 rfl
  have h5 := k5 (by
    intro j y hj hy
    match j with
    | 0 => cases hj; exact absurd hy (by decide)
    | 1 => cases hj; exact absurd hy (by decide)
    | 2 => rfl
    | j + 3 => cases hj)
  have hrules := exRules h1
  subst hrules
  obtain ⟨last, e1, e2⟩ := h5.module
  have hlast : last = str% "c" := e1.unique ⟨by decide, [], rfl, .inl rfl⟩
  subst hlast
  have := k2.symm.trans e2
  cases this
  exact ⟨text, file, p, _, exRun3_exits, k3, k4, k1, k2, exFrames2 h5.answers trivial⟩

/-- C85 applied to the two inputs with one debug id: their place in the store holds one symbol file, with the lines of both. -/
example : ∃ text file p name out', Exits exEnv2 (str% "1.0") 4 exOptions3 exDisk3 exOrders Output.emptyWorld 0 out' ∧
    InStore (str% "/s") name (str% "E1") p ∧ out'.files p = some (Utf8.encode text) ∧ readSymFile text = some file ∧
    file.framesAt 0x2004 = some [⟨str% "b()", some (str% "/c/y.c"), 20⟩] ∧
    file.framesAt 0x3004 = some [⟨str% "c1()", some (str% "/c/y.c"), 31⟩] := by
  obtain ⟨rules, h1, h2⟩ := C85_disjoint exEnv2 (str% "1.0") 4 exOptions3 exInputs exDisk3 exOrders none (str% "x86_64") 2 (str% "/s") exSeveral
    Output.emptyWorld
  have hrules := exRules h1
  subst hrules
  have hthird : ∀ (g : Nat) (z : Input), exInputs[g]? = some z → z.obj.debugId = str% "E1" → g = 0 ∨ g = 1 := by
    intro g z hg hz
    match g with
    | 0 => exact .inl rfl
    | 1 => exact .inr rfl
    | 2 => cases hg; exact absurd hz (by decide)
    | g + 3 => cases hg
  obtain ⟨text, file, p, os, cpu, name, k1, _, k3, k4, k5, k6⟩ := h2 _ _ exRun3_exits 0 1 in0 in1 (by decide) rfl rfl rfl hthird (.inl rfl)
  refine ⟨text, file, p, name, _, exRun3_exits, k3, k4, k1, exFrames0 k5 ?_, exFrames1 k6 ?_⟩
  · intro b h1 h2 h
    have : b = 0x2000 ∨ b = 0x2001 ∨ b = 0x2002 ∨ b = 0x2003 ∨ b = 0x2004 := by omega
    rcases h with h | ⟨h, _⟩
    · rcases this with rfl | rfl | rfl | rfl | rfl <;> exact h rfl
    · cases h
  · intro b h1 h2 h
    have : b = 0x3000 ∨ b = 0x3001 ∨ b = 0x3002 ∨ b = 0x3003 ∨ b = 0x3004 := by omega
    rcases h with h | ⟨h, _⟩
    · rcases this with rfl | rfl | rfl | rfl | rfl <;> exact h rfl
    · cases h

/-! ## Two files with one debug id and an output file -/

def exOptions2 : Options :=
  { exOptions [str% "/d/a", str% "/d/b"] with numJobs := str% "2", inlines := true, checkCfi := true, store := none, output := some (str% "/o.sym") }

theorem exPossible2 {l : List Nat} {m : ObjectInfo} (h : Possible exEnv2 none true exOrders.tables [in0, in1] l m) :
    Possible exEnv2 none true exOrders.tables exInputs l m := by
  have hin : ∀ {i : Nat} {x : Input}, [in0, in1][i]? = some x → exInputs[i]? = some x := by
    intro i x hi
    match i with
    | 0 => exact hi
    | 1 => exact hi
    | i + 2 => cases hi
  induction h with
  | one i x m hi hm => exact .one i x m (hin hi) hm
  | more i l x m p c hi hm hl hp hc ih => exact .more i l x m p c (hin hi) hm hl ih hc

theorem exWorkable : Workable exEnv2 (str% "1.0") exOptions2 [in0, in1] exDisk3 exOrders none (str% "x86_64") 2 := by
  have hsub : ∀ x, x ∈ [in0, in1] → x ∈ exInputs := by
    intro x hx
    simp only [List.mem_cons, List.not_mem_nil, or_false] at hx
    simp only [exInputs, List.mem_cons]
    rcases hx with rfl | rfl <;> simp
  have h := exSeveral
  exact {
    sha := h.sha
    order := h.order
    noList := rfl
    files := rfl
    notOne := by decide
    info := by intro v hv; cases hv
    lines := by intro l hl; cases hl
    sane := h.sane
    results := h.results
    hashes := h.hashes
    rules := rfl
    knownArch := rfl
    each := fun w hw x hx => h.each w hw x (hsub x hx)
    size := fun x hx => h.size x (hsub x hx)
    below := by decide
    cfi := fun _ x hx => h.cfi rfl x (hsub x hx)
    parts := h.parts
    mkdirs := h.mkdirs
    create := h.create
    room := fun l m t hm => h.room l m t (exPossible2 hm) }

def exConfig2 : Config := match actionOf 4 exOptions2 with | .dump c => c | _ => exConfig
def exThreads2 : Threads.Env := threads exEnv2 (some []) exConfig2 exOptions2.filenames (fun _ => exDisk3) exOrders none (str% "x86_64") Output.emptyWorld
def exRun2 : List Threads.Action := [.send, .send] ++ steps 0 12 ++ steps 1 1 ++ steps 0 3 ++ [.join, .join]

def exLast2 : Threads.Moment :=
  played exThreads2 (Output.callsOf exEnv2.io (some []) exConfig2.output exConfig2.checkCfi) Output.emptyWorld (whole exRun2)

theorem exRun2_exits : Exits exEnv2 (str% "1.0") 4 exOptions2 exDisk3 exOrders Output.emptyWorld 0 exLast2.out :=
  .acts [] (.ok ()) _ rfl (.several exConfig2 (fun _ => exDisk3) (.ok ()) _ (by decide) (fun _ => .start) (.returned none (str% "x86_64") exLast2 rfl
    (played_moments (by decide +kernel)) (by decide +kernel)))

/-- C85 applied: the output file holds one symbol file, with the lines of both inputs. -/
example : ∃ text file out', Exits exEnv2 (str% "1.0") 4 exOptions2 exDisk3 exOrders Output.emptyWorld 0 out' ∧
    out'.files (str% "/o.sym") = some (Utf8.encode text) ∧ readSymFile text = some file ∧
    file.framesAt 0x2004 = some [⟨str% "b()", some (str% "/c/y.c"), 20⟩] ∧
    file.framesAt 0x3004 = some [⟨str% "c1()", some (str% "/c/y.c"), 31⟩] := by
  obtain ⟨rules, h1, h2⟩ := C85_pair exEnv2 (str% "1.0") 4 exOptions2 in0 in1 exDisk3 exOrders none (str% "x86_64") 2 exWorkable rfl (.inl rfl)
    Output.emptyWorld
  have hrules := exRules h1
  subst hrules
  obtain ⟨_, text, file, os, cpu, name, k1, _, k4, k5, k6⟩ := h2 _ _ exRun2_exits
  refine ⟨text, file, _, exRun2_exits, k4 (.path (str% "/o.sym")) (.inr (.inr (.inl ⟨_, rfl, by decide, rfl⟩))), k1, exFrames0 k5 ?_, exFrames1 k6 ?_⟩
  · intro b h1 h2 h
    have : b = 0x2000 ∨ b = 0x2001 ∨ b = 0x2002 ∨ b = 0x2003 ∨ b = 0x2004 := by omega
    rcases h with h | ⟨h, _⟩
    · rcases this with rfl | rfl | rfl | rfl | rfl <;> exact h rfl
    · cases h
  · intro b h1 h2 h
    have : b = 0x3000 ∨ b = 0x3001 ∨ b = 0x3002 ∨ b = 0x3003 ∨ b = 0x3004 := by omega
    rcases h with h | ⟨h, _⟩
    · rcases this with rfl | rfl | rfl | rfl | rfl <;> exact h rfl
    · cases h

end Run
end DumpSyms
