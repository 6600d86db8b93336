import Verif.Props.Many
/-!
# C125: runs over three files that make up one module
-/
namespace DumpSyms
open ObjectInfo Collector Reader

namespace Run
open Dumper Threads

/-- A part of the module of `exElf`. -/
def manyObj (debug : Bool) (fs : List Func) (ps : List Public) : ObjInput :=
  { objOf (str% "E1") debug fs ps with kind := .other, unwind := some (str% "STACK CFI 2\n") }

/-- A file with public symbols only, one of them at the address of a function of `exElf`. -/
def exElfBare : ObjInput := manyObj false [] [⟨some (str% "b"), 0x2000, 0x10⟩, ⟨some (str% "p"), 0x4000, 4⟩]
def exElfA : ObjInput := manyObj true [mA1] []
def exElfC : ObjInput := manyObj false [mC1, mC2, mC3] []

def manyEnv : Dumper.Env := { exEnv with parsers := { exParsers with
  elf := fun b => if b = [1, 1] then .ok exElfBare else if b = [1, 3] then .ok exElfA else if b = [1, 4] then .ok exElfC
    else exParsers.elf b } }
def manyDisk : Cache.World := exWorld [(str% "/d/a", .file [1] true), (str% "/d/b", .file [1, 1] true), 
  (str% "/d/d", .file [1, 3] true), (str% "/d/e", .file [1, 4] true)]

def inBare : Input := ⟨str% "/d/", str% "b", [1, 1], exElfBare, str% "b", none, none, .linux, true, [], []⟩
def inA : Input := ⟨str% "/d/", str% "d", [1, 3], exElfA, str% "d", none, none, .linux, true, [some mA1], []⟩
def inC : Input := ⟨str% "/d/", str% "e", [1, 4], exElfC, str% "e", none, none, .linux, true, [some mC1, some mC2, some mC3], []⟩

/-- Files of which two refer to source files. -/
def manyInputs : List Input := [in0, inBare, inA]
/-- Files that all do. -/
def sourceInputs : List Input := [in0, inA, inC]

def manyOptions (inputs : List Input) : Options :=
  { exOptions (inputs.map fun x => x.pre ++ x.filename) with numJobs := str% "1", inlines := true, checkCfi := true }

/-- The dump of an input. -/
def manyDump (env : Dumper.Env) (inputs : List Input) (i : Nat) : ObjectInfo :=
  match inputs[i]? with
  | some x => theObj (fromObject (x.cenv env none) true x.platform x.obj x.name x.pe x.peName)
  | none => theObj .panic

/-- The module made of inputs. -/
def built (env : Dumper.Env) (inputs : List Input) : List Nat → ObjectInfo
  | [] => theObj .panic
  | [i] => manyDump env inputs i
  | i :: j :: l => theObj (ObjectInfo.merge id (manyDump env inputs i) (built env inputs (j :: l)))

/-- The text of a module. -/
def textOf (m : ObjectInfo) : Str := match m.display (some []) with | .ok t => t | _ => []

/-- The ways to make a module of some of three inputs. -/
def manyWays : List (List Nat) :=
  [[0], [1], [2], [0, 1], [0, 2], [1, 0], [1, 2], [2, 0], [2, 1], [0, 1, 2], [0, 2, 1], [1, 0, 2], [1, 2, 0], [2, 0, 1], [2, 1, 0]]

theorem many_dumps {env : Dumper.Env} {inputs : List Input} {i : Nat} {x : Input} {m : ObjectInfo} (hi : inputs[i]? = some x) (ho : x.opts = true)
    (hm : x.Dumps env none true m) : m = manyDump env inputs i := by
  unfold Input.Dumps at hm
  rw [ho] at hm
  unfold manyDump
  rw [hi]
  simp only [Bool.and_self] at hm
  simp only [hm]; rfl

theorem manyPossible {env : Dumper.Env} {inputs : List Input} (h3 : inputs.length = 3) (ho : ∀ x ∈ inputs, x.opts = true) {l : List Nat} {m : ObjectInfo}
    (h : Possible env none true exOrders.tables inputs l m) : l ∈ manyWays ∧ m = built env inputs l := by
  have bound : ∀ (i : Nat) (x : Input), inputs[i]? = some x → i < 3 := by
    intro i x hi
    rw [← h3]
    exact (List.getElem?_eq_some_iff.mp hi).1
  have one : ∀ i < 3, [i] ∈ manyWays := by decide
  have more : ∀ l ∈ manyWays, ∀ i < 3, i ∉ l → i :: l ∈ manyWays := by decide
  induction h with
  | one i x m hi hm => exact ⟨one i (bound i x hi), many_dumps hi (ho x (List.mem_of_getElem? hi)) hm⟩
  | more i l x m p c hi hm hl hp hc ih =>
    obtain ⟨ih1, rfl⟩ := ih
    refine ⟨more l ih1 i (bound i x hi) hl, ?_⟩
    match l, ih1 with
    | [], ih1 => exact absurd ih1 (by decide)
    | j :: l, _ =>
      have e := many_dumps hi (ho x (List.mem_of_getElem? hi)) hm
      subst e
      have hc' : ObjectInfo.merge id (manyDump env inputs i) (built env inputs (j :: l)) = .ok c := hc
      simp only [built, hc', theObj]

theorem many_ok {x : Input} (hx : x ∈ [in0, inBare, inA, inC]) :
    ObjOk (x.cenv manyEnv none) sampleMem sampleU sampleV x.platform x.obj x.fs := by
  have ref : ∀ f ∈ [sampleFile1, sampleFile2, sampleFile3],
      RefOk (cenv manyEnv .linux none exElfA).src sampleMem sampleU sampleComp f := by
    intro f hf
    refine refOk_iff.mpr ⟨(sampleRef hf).1, ?_, rfl⟩
    revert f; decide +kernel
  have node : ∀ (a s : Nat) (n : Name) (ls : List LineInfo) (is : List Func), (∀ l ∈ ls, l.file ∈ [sampleFile1, sampleFile2, sampleFile3]) →
      (∀ g ∈ is, g.name ∈ sampleV ∧ g.All (RefOk (cenv manyEnv .linux none exElfA).src sampleMem sampleU) (fun n => n ∈ sampleV)) →
      (Func.mk a s n sampleComp ls is).All (RefOk (cenv manyEnv .linux none exElfA).src sampleMem sampleU) (fun n => n ∈ sampleV) :=
    fun a s n ls is h hi => .mk _ (fun l hl => ref _ (h l hl)) (fun g hg => (hi g hg).1) (fun g hg => (hi g hg).2)
  simp only [List.mem_cons, List.not_mem_nil, or_false] at hx
  rcases hx with rfl | rfl | rfl | rfl
  case inl => exact exElf_ok _ rfl
  all_goals
    refine ⟨rfl, ⟨by decide, by decide, sampleSort, ?_⟩, (by intro es h; cases h), (fun h => by cases h),
      embeddedInside_of_kind (by intro l h; cases h)⟩
    intro f hf
    simp only [inBare, inA, inC, List.mem_cons, Option.some.injEq, List.not_mem_nil, or_false] at hf
  · subst hf
    refine node _ _ _ _ _ (by decide) ?_
    intro g hg
    simp only [List.mem_cons, List.not_mem_nil, or_false] at hg
    rcases hg with rfl | rfl <;> exact ⟨by decide, node _ _ _ _ _ (by decide) (by simp)⟩
  · rcases hf with rfl | rfl | rfl <;> exact node _ _ _ _ _ (by decide) (by simp)

theorem many_plain {x : Input} (hx : x ∈ [in0, inBare, inA, inC]) :
    PlainTexts (x.cenv manyEnv none) x.platform x.obj x.fs x.name x.pe x.peName := by
  have hok := many_ok hx
  simp only [List.mem_cons, List.not_mem_nil, or_false] at hx
  rcases hx with rfl | rfl | rfl | rfl
  case inl => exact exElf_plain
  all_goals
    refine ⟨by unfold Unbroken; decide, by unfold Unbroken; decide, ?_, by unfold OneLine; decide, ?_, ?_, ?_, ?_, ?_, ?_, ?_⟩
    · rintro c (h | ⟨q, h, _⟩) <;> cases h <;> decide
    · intro n h; cases h; unfold OneLine; decide
    · intro p h; cases h
    · intro f hf c i h p hp
      obtain ⟨_, h2, _⟩ := refOk_iff.mp ((hok.input.funcs f hf).refers h)
      cases records_iff.mp hp
      have key : ∀ q ∈ sampleU, '\n' ∉ ((cenv exEnv .linux none exElf).src.mapping q).getD q := by decide
      exact key _ h2
    · intro f hf t h
      simp only [inBare, inA, inC, List.mem_cons, Option.some.injEq, List.not_mem_nil, or_false] at hf
      all_goals first
      | (subst hf
         cases (shown_demangle (cenv exEnv .linux none exElf) _ _).mp h
         unfold OneLine; decide)
      | (rcases hf with rfl | rfl | rfl <;> cases (shown_demangle (cenv exEnv .linux none exElf) _ _).mp h <;> (unfold OneLine; decide))
    · intro ps hps p hp t k ht
      rcases hps with rfl | hps
      · first
        | (cases hp; done)
        | (have hp' : p ∈ [⟨some (str% "b"), 0x2000, 0x10⟩, ⟨some (str% "p"), 0x4000, 4⟩] := hp
           simp only [List.mem_cons, List.not_mem_nil, or_false] at hp'
           rcases hp' with rfl | rfl
           · have := ((ht.2 _ rfl).1 (by decide)).1.1 rfl
             subst this; unfold OneLine; decide
           · have := ((ht.2 _ rfl).1 (by decide)).1.1 rfl
             subst this; unfold OneLine; decide)
      · obtain ⟨r, h1, h2⟩ := (embeds_iff hok.embedded ps).mp hps
        cases h1; subst h2; cases hp
    · intro hs h; cases h
    · rintro t (h | ⟨q, h, _⟩) <;> cases h
      exact ⟨[str% "CFI 2"], rfl, by intro l hl; simp at hl; subst hl; unfold OneLine; decide⟩

theorem manyDisk_file {q : Str} {es : List Str} (h : manyDisk.disk q = some (.dir es)) : False := by
  simp only [manyDisk, exWorld, WinUtils.diskOf, List.lookup] at h
  repeat' split at h
  all_goals cases h

theorem manyNoServer : ∀ servers, Cache.getSymServers manyEnv.home manyDisk.disk none ≠ .ok (some servers) := by
  intro servers h
  have : Cache.getSymServers manyEnv.home manyDisk.disk none = .ok none := by decide +kernel
  rw [this] at h; cases h

theorem many_each {w : Cache.World} (hw : Meanwhile manyEnv manyDisk w) {x : Input} (hx : x ∈ [in0, inBare, inA, inC]) :
    x.Ok manyEnv none (str% "x86_64") w [] := by
  have hdisk := hw.same_disk manyNoServer
  obtain ⟨disk, log⟩ := w
  cases hdisk
  clear hw
  have hok := many_ok hx
  have hplain := many_plain hx
  simp only [List.mem_cons, List.not_mem_nil, or_false] at hx
  rcases hx with rfl | rfl | rfl | rfl
  · exact ⟨.inr rfl, by unfold ProperComp; decide, ⟨_, str% "/d/", str% "a", _, .file [1] rfl, rfl, .inr rfl, by unfold ProperComp; decide, .plain rfl⟩,
      (fun _ _ h => by cases h), ⟨_, .elf _ rfl rfl⟩, ⟨_, _, _, hok⟩, hplain, (by intro _ _ l hl; cases hl),
      (embeds_iff hok.embedded []).mpr ⟨none, rfl, rfl⟩, by unfold ProperComp; decide⟩
  · exact ⟨.inr rfl, by unfold ProperComp; decide, ⟨_, str% "/d/", str% "b", _, .file [1, 1] rfl, rfl, .inr rfl, by unfold ProperComp; decide, .plain rfl⟩,
      (fun _ _ h => by cases h), ⟨_, .elf _ rfl rfl⟩, ⟨_, _, _, hok⟩, hplain, (by intro _ _ l hl; cases hl),
      (embeds_iff hok.embedded []).mpr ⟨none, rfl, rfl⟩, by unfold ProperComp; decide⟩
  · exact ⟨.inr rfl, by unfold ProperComp; decide, ⟨_, str% "/d/", str% "d", _, .file [1, 3] rfl, rfl, .inr rfl, by unfold ProperComp; decide, .plain rfl⟩,
      (fun _ _ h => by cases h), ⟨_, .elf _ rfl rfl⟩, ⟨_, _, _, hok⟩, hplain, (by intro _ _ l hl; cases hl),
      (embeds_iff hok.embedded []).mpr ⟨none, rfl, rfl⟩, by unfold ProperComp; decide⟩
  · exact ⟨.inr rfl, by unfold ProperComp; decide, ⟨_, str% "/d/", str% "e", _, .file [1, 4] rfl, rfl, .inr rfl, by unfold ProperComp; decide, .plain rfl⟩,
      (fun _ _ h => by cases h), ⟨_, .elf _ rfl rfl⟩, ⟨_, _, _, hok⟩, hplain, (by intro _ _ l hl; cases hl),
      (embeds_iff hok.embedded []).mpr ⟨none, rfl, rfl⟩, by unfold ProperComp; decide⟩

theorem manySeveral {inputs : List Input} (hin : inputs = manyInputs ∨ inputs = sourceInputs) :
    Several manyEnv (str% "1.0") (manyOptions inputs) inputs manyDisk exOrders none (str% "x86_64") 2 (str% "/s") := by
  have hpool : ∀ x ∈ inputs, x ∈ [in0, inBare, inA, inC] := by
    intro x hx
    rcases hin with rfl | rfl <;> simp only [manyInputs, sourceInputs, List.mem_cons, List.not_mem_nil, or_false] at hx <;>
      rcases hx with rfl | rfl | rfl <;> simp
  have hlen : inputs.length = 3 := by rcases hin with rfl | rfl <;> rfl
  have hopts : ∀ x ∈ inputs, x.opts = true := by
    intro x hx
    have := hpool x hx
    simp only [List.mem_cons, List.not_mem_nil, or_false] at this
    rcases this with rfl | rfl | rfl | rfl <;> rfl
  exact {
    sha := by
      intro d b hb
      obtain ⟨x, _, rfl⟩ := List.mem_map.mp hb
      omega
    order := fun l => List.reverse_perm l
    noList := rfl
    files := rfl
    notOne := by rw [hlen]; decide
    info := by intro v hv; cases hv
    lines := by intro l hl; cases hl
    sane := ⟨fun q es h => (manyDisk_file h).elim, (fun u st raw p h => by cases h), (fun js j h => by cases h),
      .inr ⟨str% "/", str% "w", rfl, .inr rfl, by unfold ProperComp; decide⟩⟩
    results := fun t => .refl _
    hashes := fun l t => .refl _
    rules := rfl
    knownArch := rfl
    each := fun w hw x hx => many_each hw (hpool x hx)
    size := by
      intro x hx m hm
      obtain ⟨i, hi⟩ := List.mem_iff_getElem?.mp hx
      have hi3 : i < 3 := by rw [← hlen]; exact (List.getElem?_eq_some_iff.mp hi).1
      cases many_dumps hi (hopts x hx) hm
      have key : ∀ i < 3, (manyDump manyEnv manyInputs i).files.getMapping.length ≤ 2 ∧ (manyDump manyEnv manyInputs i).inlineOrigins.length ≤ 2 := by decide +kernel
      have key2 : ∀ i < 3, (manyDump manyEnv sourceInputs i).files.getMapping.length ≤ 2 ∧ (manyDump manyEnv sourceInputs i).inlineOrigins.length ≤ 2 := by decide +kernel
      rcases hin with rfl | rfl
      · exact key i hi3
      · exact key2 i hi3
    below := by rw [hlen]; decide
    cfi := by
      intro _ x hx
      have := hpool x hx
      simp only [List.mem_cons, List.not_mem_nil, or_false] at this
      rcases this with rfl | rfl | rfl | rfl <;> decide
    store := rfl
    named := by decide
    output := by intro f h; cases h
    parts := by simp [manyEnv, exEnv, Output.goodDisk, Output.fullDisk]
    mkdirs := fun _ => rfl
    create := fun _ => rfl
    room := by
      intro l m t hm ht fo
      obtain ⟨h1, rfl⟩ := manyPossible hlen hopts hm
      have hb : ∀ l ∈ manyWays, lengthOf (built manyEnv manyInputs l) ≤ 1000000 := by decide +kernel
      have hb2 : ∀ l ∈ manyWays, lengthOf (built manyEnv sourceInputs l) ≤ 1000000 := by decide +kernel
      have ht' : (built manyEnv inputs l).display (some []) = .ok t := ht
      have hl : lengthOf (built manyEnv inputs l) ≤ 1000000 := by
        rcases hin with rfl | rfl
        · exact hb l h1
        · exact hb2 l h1
      unfold lengthOf at hl
      rw [ht'] at hl
      exact hl }

def manyConfig (inputs : List Input) : Config := match actionOf 4 (manyOptions inputs) with | .dump c => c | _ => exConfig
def manyThreads (inputs : List Input) : Threads.Env :=
  threads manyEnv (some []) (manyConfig inputs) (manyOptions inputs).filenames (fun _ => manyDisk) exOrders none (str% "x86_64") Output.emptyWorld

/-- The only worker reads one file after the other and writes the module. -/
def manyRun : List Threads.Action := [.send, .send] ++ steps 0 1 ++ [.send] ++ steps 0 18 ++ [.join]

def manyLast (inputs : List Input) : Threads.Moment :=
  played (manyThreads inputs) (Output.callsOf manyEnv.io (some []) (manyConfig inputs).output (manyConfig inputs).checkCfi) Output.emptyWorld
    (whole manyRun)

theorem manyRun_exits : Exits manyEnv (str% "1.0") 4 (manyOptions manyInputs) manyDisk exOrders Output.emptyWorld 0 (manyLast manyInputs).out :=
  .acts [] (.ok ()) _ rfl (.several (manyConfig manyInputs) (fun _ => manyDisk) (.ok ()) _ (by decide) (fun _ => .start)
    (.returned none (str% "x86_64") (manyLast manyInputs) rfl (played_moments (by decide +kernel)) (by decide +kernel)))

theorem sourceRun_exits : Exits manyEnv (str% "1.0") 4 (manyOptions sourceInputs) manyDisk exOrders Output.emptyWorld 0 (manyLast sourceInputs).out :=
  .acts [] (.ok ()) _ rfl (.several (manyConfig sourceInputs) (fun _ => manyDisk) (.ok ()) _ (by decide) (fun _ => .start)
    (.returned none (str% "x86_64") (manyLast sourceInputs) rfl (played_moments (by decide +kernel)) (by decide +kernel)))

theorem mA1_wf : mA1.WF := by
  have leaf : ∀ a s n c l, l.address < l.stop → l.stop < M32 → (Func.mk a s n c [l] []).WF := by
    intro a s n c l h1 h2
    refine .mk _ ?_ ?_ ?_ ?_ ?_ <;> simp [Func.lines, Func.inlinees, h1, h2]
  refine .mk _ (by decide) (by decide) ?_ ?_ ?_
  · simp only [mA1, Func.inlinees, List.pairwise_cons, List.mem_cons, List.not_mem_nil, or_false]
    refine ⟨?_, by simp⟩
    rintro g rfl a ⟨⟨l, hl, h1⟩, ⟨l', hl', h2⟩⟩
    simp only [Func.lines, List.mem_cons, List.not_mem_nil, or_false] at hl hl'
    subst hl hl'
    unfold LineInfo.Covers LineInfo.stop at h1 h2
    simp only [Option.getD_some] at h1 h2
    omega
  · intro g hg l hl
    simp only [mA1, Func.inlinees, List.mem_cons, List.not_mem_nil, or_false] at hg
    rcases hg with rfl | rfl <;> simp only [Func.lines, List.mem_cons, List.not_mem_nil, or_false] at hl <;> subst hl
    · exact ⟨⟨0x1000, some 8, sampleFile1, 10⟩, by decide, by decide⟩
    · exact ⟨⟨0x1008, some 8, sampleFile3, 10⟩, by decide, by decide⟩
  · intro g hg
    simp only [mA1, Func.inlinees, List.mem_cons, List.not_mem_nil, or_false] at hg
    rcases hg with rfl | rfl <;> exact leaf _ _ _ _ _ (by decide) (by decide)

theorem mA1_outside {g : Func} (hg : g ∈ mA1.inlinees) : ¬ g.Covers 0x1006 := by
  simp only [mA1, Func.inlinees, List.mem_cons, List.not_mem_nil, or_false] at hg
  rintro ⟨l, hl, h1, h2⟩
  rcases hg with rfl | rfl <;> simp only [Func.lines, List.mem_cons, List.not_mem_nil, or_false] at hl <;> subst hl
  · exact absurd h2 (by decide)
  · exact absurd h1 (by decide)

/-- The address `0x1006` is in line 10 of `x.c`. -/
theorem inA_frames {on : Nat → Nat → Prop} {frames : Nat → Option (List Frame)} (h : (inA.source manyEnv none [] true).Answers on frames)
    (hon : on 0x1000 0x1006) : frames 0x1006 = some [⟨str% "a()", some (str% "/b/x.c"), 10⟩] := by
  obtain ⟨shown, f1, f2⟩ := h.nested rfl 0x1000 0x1006 mA1
    ⟨⟨[], rfl⟩, by decide, by decide, by decide, by
      intro b h1 h2
      have : b = 0x1001 ∨ b = 0x1002 ∨ b = 0x1003 ∨ b = 0x1004 ∨ b = 0x1005 ∨ b = 0x1006 := by omega
      rcases this with rfl | rfl | rfl | rfl | rfl | rfl <;> rfl⟩
    hon mA1_wf (.mk _ (by
      intro g hg
      simp only [mA1, Func.inlinees, List.mem_cons, List.not_mem_nil, or_false] at hg
      rcases hg with rfl | rfl <;> simp [Func.NoGap, Func.lines, Adj]) (by
      intro g hg
      simp only [mA1, Func.inlinees, List.mem_cons, List.not_mem_nil, or_false] at hg
      rcases hg with rfl | rfl <;> exact .mk _ (by simp [Func.inlinees]) (by simp [Func.inlinees]))) (by decide) (str% "a()")
    ((shown_demangle sampleCEnv _ _).mpr rfl) (fun _ r => if r = sampleFile3 then str% "/c/y.c" else str% "/b/x.c") (printedOrigin sampleCEnv) ⟨by
      intro f hf c r hr q hq
      obtain ⟨p, e1, e2⟩ := hq
      have hf' : some f ∈ [some mA1] := hf
      simp only [List.mem_cons, Option.some.injEq, List.not_mem_nil, or_false] at hf'
      subst hf'
      cases records_iff.mp (cenv_records (mapping := none).mpr e1)
      have hcr : c = sampleComp ∧ (r = sampleFile1 ∨ r = sampleFile3) := by
        cases hr with
        | inlined _ g _ _ hg hr =>
          simp only [mA1, Func.inlinees, List.mem_cons, List.not_mem_nil, or_false] at hg
          rcases hg with rfl | rfl <;> cases hr with
          | inlined _ g _ _ hg => simp [Func.inlinees] at hg
          | here _ l hl =>
            simp only [Func.lines, List.mem_cons, List.not_mem_nil, or_false] at hl
            subst hl; exact ⟨rfl, .inl rfl⟩
        | here _ l hl =>
          simp only [mA1, Func.lines, List.mem_cons, List.not_mem_nil, or_false] at hl
          rcases hl with rfl | rfl
          · exact ⟨rfl, .inl rfl⟩
          · exact ⟨rfl, .inr rfl⟩
      rcases e2 with ⟨pre, rule, post, h, _⟩ | ⟨_, h⟩
      · simp at h
      · rw [h]
        obtain ⟨rfl, rfl | rfl⟩ := hcr <;> decide, ((printed_iff sampleCEnv (printedPath sampleCEnv) _).mpr ⟨rfl, rfl⟩).nameOf⟩
    ⟨0x1000, some 8, sampleFile1, 10⟩ sampleComp (.self _ _ _ (by simp [mA1, Func.lines]) ⟨by decide, by decide⟩ (fun _ hg => mA1_outside hg))
    [] (.nil _ _ (fun _ hg => mA1_outside hg))
  rcases f1 with rfl | ⟨h, _⟩
  · exact f2
  · cases h

theorem manyTwo (i j k : Nat) (x y z : Input) (hi : manyInputs[i]? = some x) (hj : manyInputs[j]? = some y) (hk : manyInputs[k]? = some z)
    (hx : x.Sources) (hy : y.Sources) (hz : z.Sources) : i = j ∨ i = k ∨ j = k := by
  have sources : ∀ (i : Nat) (x : Input), manyInputs[i]? = some x → x.Sources → i = 0 ∨ i = 2 := by
    rintro i x hi ⟨f, c, r, hf, _⟩
    match i with
    | 0 => exact .inl rfl
    | 1 => cases hi; cases hf
    | 2 => exact .inr rfl
    | i + 3 => cases hi
  have := sources i x hi hx
  have := sources j y hj hy
  have := sources k z hk hz
  omega

/-- No function of the others starts in `b` up to `0x2004`. -/
theorem manyAway0 (j : Nat) (y : Input) (hj : manyInputs[j]? = some y) (hne : j ≠ 0) (b : Nat) (b1 : 0x2000 ≤ b) (b2 : b ≤ 0x2004) : ¬ y.StartsAt b := by
  intro h
  have hb : b = 0x2000 ∨ b = 0x2001 ∨ b = 0x2002 ∨ b = 0x2003 ∨ b = 0x2004 := by omega
  match j with
  | 0 => exact hne rfl
  | 1 | 2 =>
    cases hj
    rcases h with h | ⟨h, _⟩
    · rcases hb with rfl | rfl | rfl | rfl | rfl <;> exact h rfl
    · cases h
  | j + 3 => cases hj

/-- No function of the others starts in `a` up to `0x1006`. -/
theorem manyAwayA (j : Nat) (y : Input) (hj : manyInputs[j]? = some y) (hne : j ≠ 2) (b : Nat) (b1 : 0x1000 ≤ b) (b2 : b ≤ 0x1006) : ¬ y.StartsAt b := by
  intro h
  have hb : b = 0x1000 ∨ b = 0x1001 ∨ b = 0x1002 ∨ b = 0x1003 ∨ b = 0x1004 ∨ b = 0x1005 ∨ b = 0x1006 := by omega
  match j with
  | 0 | 1 =>
    cases hj
    rcases h with h | ⟨h, _⟩
    · rcases hb with rfl | rfl | rfl | rfl | rfl | rfl | rfl <;> exact h rfl
    · cases h
  | 2 => exact hne rfl
  | j + 3 => cases hj

/-- C125 applied: the symbol file made of the three files says that address `0x2004` is in line 20 of `b`, although one of the others has a public
symbol there, and that `0x1006` is in line 10 of `a`, as a third one says. -/
example : ∃ text file p name out', Exits manyEnv (str% "1.0") 4 (manyOptions manyInputs) manyDisk exOrders Output.emptyWorld 0 out' ∧
    InStore (str% "/s") name (str% "E1") p ∧ out'.files p = some (Utf8.encode text) ∧ readSymFile text = some file ∧
    file.framesAt 0x2004 = some [⟨str% "b()", some (str% "/c/y.c"), 20⟩] ∧ file.framesAt 0x1006 = some [⟨str% "a()", some (str% "/b/x.c"), 10⟩] := by
  obtain ⟨rules, h1, h2⟩ := C125_many_partial manyEnv (str% "1.0") 4 (manyOptions manyInputs) manyInputs manyDisk exOrders none (str% "x86_64") 2
    (str% "/s") (manySeveral (.inl rfl)) Output.emptyWorld
  have hrules : rules = [] := exRules h1
  subst hrules
  obtain ⟨_, h3⟩ := h2 _ _ manyRun_exits
  obtain ⟨text, file, p, os, cpu, name, k1, k2, k3, k4, k5⟩ := h3 (str% "E1") ⟨in0, by simp [manyInputs], rfl⟩
    (fun i j k x y z hi hj hk _ _ _ => manyTwo i j k x y z hi hj hk) (.inl rfl)
  exact ⟨text, file, p, name, _, manyRun_exits, k3, k4, k1, exFrames0 (k5 0 in0 rfl rfl) (fun j y hj _ => manyAway0 j y hj),
    inA_frames (k5 2 inA rfl rfl) (fun j y hj _ => manyAwayA j y hj)⟩

/-- C125 applied to the destinations of the same run. -/
example : ∃ text file name out', Exits manyEnv (str% "1.0") 4 (manyOptions manyInputs) manyDisk exOrders Output.emptyWorld 0 out' ∧
    (∀ fo, Destination (manyOptions manyInputs) name (str% "E1") fo → Output.Holds Output.emptyWorld out' fo (Utf8.encode text)) ∧
    readSymFile text = some file ∧ file.framesAt 0x2004 = some [⟨str% "b()", some (str% "/c/y.c"), 20⟩] ∧
    file.framesAt 0x1006 = some [⟨str% "a()", some (str% "/b/x.c"), 10⟩] := by
  obtain ⟨rules, h1, h2⟩ := C125_one_id_partial manyEnv (str% "1.0") 4 (manyOptions manyInputs) manyInputs manyDisk exOrders none (str% "x86_64") 2
    (manySeveral (.inl rfl)).toWorkable (by simp [manyInputs]) (str% "E1") (by
      intro x hx
      simp only [manyInputs, List.mem_cons, List.not_mem_nil, or_false] at hx
      rcases hx with rfl | rfl | rfl <;> rfl) manyTwo (.inl rfl) Output.emptyWorld
  have hrules : rules = [] := exRules h1
  subst hrules
  obtain ⟨_, text, file, os, cpu, name, k1, k2, k3, k4⟩ := h2 _ _ manyRun_exits
  exact ⟨text, file, name, _, manyRun_exits, k3, k1, exFrames0 (k4 0 in0 rfl) manyAway0, inA_frames (k4 2 inA rfl) manyAwayA⟩

/-- **C125 fails if three inputs refer to source files.** The run over the three files ends with status 0, and the text in the store says that the address
`0x1006` is in line 10 of `y.c`; the debug information of the second file, the only one with a function there, says that it is in line 10 of `x.c`. -/
theorem C125_many_witness :
    Several manyEnv (str% "1.0") (manyOptions sourceInputs) sourceInputs manyDisk exOrders none (str% "x86_64") 2 (str% "/s") ∧
    ∃ text file p name out', Exits manyEnv (str% "1.0") 4 (manyOptions sourceInputs) manyDisk exOrders Output.emptyWorld 0 out' ∧
      InStore (str% "/s") name (str% "E1") p ∧ out'.files p = some (Utf8.encode text) ∧ readSymFile text = some file ∧
      file.framesAt 0x1006 = some [⟨str% "a()", some (str% "/c/y.c"), 10⟩] ∧
      sourceInputs[1]? = some inA ∧
      ¬ (inA.source manyEnv none [] true).Answers (fun addr a => ∀ (j : Nat) (y : Input), sourceInputs[j]? = some y → j ≠ 1 →
        ∀ b, addr ≤ b → b ≤ a → ¬ y.StartsAt b) file.framesAt := by
  refine ⟨manySeveral (.inr rfl), ?_⟩
  have hread : ((readSymFile (textOf (built manyEnv sourceInputs [2, 1, 0]))).map fun f => f.framesAt 0x1006) =
      some (some [⟨str% "a()", some (str% "/c/y.c"), 10⟩]) := by decide +kernel
  obtain ⟨file, h1, h2⟩ := Option.map_eq_some_iff.mp hread
  refine ⟨textOf (built manyEnv sourceInputs [2, 1, 0]), file, str% "/s/lib.so/E1/lib.so.sym", str% "lib.so", _, sourceRun_exits, ?_, by decide +kernel, h1, h2, rfl, ?_⟩
  · exact (inStore_iff (by decide)).mpr (by decide)
  · intro h
    have := inA_frames h (by
      intro j y hj hne b b1 b2 hs
      have hb : b = 0x1000 ∨ b = 0x1001 ∨ b = 0x1002 ∨ b = 0x1003 ∨ b = 0x1004 ∨ b = 0x1005 ∨ b = 0x1006 := by omega
      match j with
      | 0 =>
        cases hj
        rcases hs with h | ⟨h, _⟩
        · rcases hb with rfl | rfl | rfl | rfl | rfl | rfl | rfl <;> exact h rfl
        · cases h
      | 1 => exact hne rfl
      | 2 =>
        cases hj
        rcases hs with h | ⟨h, _⟩
        · rcases hb with rfl | rfl | rfl | rfl | rfl | rfl | rfl <;> exact h rfl
        · cases h
      | j + 3 => cases hj)
    rw [h2] at this
    revert this; decide

end Run
end DumpSyms
