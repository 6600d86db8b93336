import Verif.Props.Merge
import Verif.Props.Collector
/-!
# Concrete objects for C18–C27: the hypotheses can be met, and where the properties fail
-/
namespace DumpSyms
open Collector ObjectInfo Symbols

theorem sampleNode (a s : Nat) (n : Name) (ls : List LineInfo) (is : List Func)
    (h : ∀ l ∈ ls, l.file ∈ [sampleFile1, sampleFile2, sampleFile3])
    (hi : ∀ g ∈ is, g.name ∈ sampleV ∧ g.All (RefOk sampleEnv sampleMem sampleU) (fun n => n ∈ sampleV)) :
    (Func.mk a s n sampleComp ls is).All (RefOk sampleEnv sampleMem sampleU) (fun n => n ∈ sampleV) :=
  .mk _ (fun l hl => sampleRef (h l hl)) (fun g hg => (hi g hg).1) (fun g hg => (hi g hg).2)

/-- An ELF file with the given functions and public symbols. -/
def objOf (id : Str) (debug : Bool) (fs : List Func) (ps : List Public) : ObjInput where
  format := .elf
  debugId := id
  codeId := if debug then none else some (str% "ab12")
  arch := str% "x86_64"
  hasDebugInfo := debug
  name := if debug then some (str% "lib.so.debug") else some (str% "lib.so")
  functions := .ok (fs.map some)
  exceptions := none
  publics := ps
  unwind := if debug then some (str% "STACK CFI 1\n") else some (str% "STACK CFI 2")
  kind := .elf []

/-- A PE file with exception data. -/
def peOf (id : Str) (fs : List Func) (es : List ExcEntry) (ps : List Public) : ObjInput :=
  { objOf id true fs ps with format := .pe, exceptions := some es, kind := .other }

/-- The dump of an object file. -/
def dumpOf (m : ObjInput) : Res ObjectInfo := fromObject sampleCEnv true .linux m (str% "/lib/f.so") none none

theorem dumpOf_dumped {m : ObjInput} {fs : List Func} (h1 : m.functions = .ok (fs.map some))
    (h2 : ∀ f ∈ fs, f.All (RefOk sampleEnv sampleMem sampleU) (fun n => n ∈ sampleV))
    (h3 : ∀ es, m.exceptions = some es → ∀ e ∈ es, e.begin < M32 ∧ e.stop < M32) {o : ObjectInfo}
    (ho : dumpOf m = .ok o) (h4 : ∀ l, m.kind = .elf l → l = [] := by intro l h; cases h <;> rfl) :
    DumpedUnder sampleEnv.mapping o := by
  refine ⟨sampleCEnv, sampleMem, sampleU, sampleV, .linux, m, fs.map some, true, str% "/lib/f.so", none, none, ?_, rfl, ho⟩
  refine ⟨h1, ⟨by decide, by decide, sampleSort, ?_⟩, h3, (fun h => by cases h), embeddedInside_of_kind h4⟩
  intro f hf
  obtain ⟨g, hg, e⟩ := List.mem_map.mp hf
  cases e; exact h2 f hg

/-- The object a dump results in (an empty object if it fails). -/
def theObj (r : Res ObjectInfo) : ObjectInfo :=
  match r with
  | .ok o => o
  | _ => ⟨[], ⟨[], []⟩, [], [], [], [], none, none, [], .stripped, .linux⟩

def sid : Str := str% "1DE0"

/-! ## Two dumps that can be merged -/

/-- A function with an inlined call, in `x.c`. -/
def mA1 : Func := .mk 0x1000 0x10 (nm (str% "a")) sampleComp [⟨0x1000, some 8, sampleFile1, 10⟩, ⟨0x1008, some 8, sampleFile3, 10⟩]
  [.mk 0x1002 2 (nm (str% "g")) sampleComp [⟨0x1002, some 2, sampleFile1, 50⟩] [],
   .mk 0x100a 2 (nm (str% "g")) sampleComp [⟨0x100a, some 2, sampleFile1, 50⟩] []]
/-- A function in `y.c`. -/
def mB1 : Func := .mk 0x2000 0x10 (nm (str% "b")) sampleComp [⟨0x2000, some 16, sampleFile3, 20⟩] []
/-- Functions in `y.c` and `x.c`. -/
def mC1 : Func := .mk 0x3000 0x10 (nm (str% "c1")) sampleComp [⟨0x3000, some 16, sampleFile3, 31⟩] []
def mC2 : Func := .mk 0x3010 0x10 (nm (str% "c2")) sampleComp [⟨0x3010, some 16, sampleFile1, 32⟩] []
def mC3 : Func := .mk 0x3020 0x10 (nm (str% "c3")) sampleComp [] []

theorem mA1_all : mA1.All (RefOk sampleEnv sampleMem sampleU) (fun n => n ∈ sampleV) := by
  refine sampleNode _ _ _ _ _ (by decide) ?_
  intro g hg
  simp only [List.mem_cons, List.not_mem_nil, or_false] at hg
  rcases hg with rfl | rfl <;> exact ⟨by decide, sampleNode _ _ _ _ _ (by decide) (by simp)⟩

def mA : ObjInput := objOf sid true [mA1] []
def mB : ObjInput := objOf sid true [mB1] []
def mC : ObjInput := objOf sid false [mC1, mC2, mC3] []

theorem mA_dumped : DumpedUnder sampleEnv.mapping (theObj (dumpOf mA)) :=
  dumpOf_dumped (m := mA) (fs := [mA1]) rfl (by simp [mA1_all]) (by intro es h; cases h) rfl

theorem mB_dumped : DumpedUnder sampleEnv.mapping (theObj (dumpOf mB)) :=
  dumpOf_dumped (m := mB) (fs := [mB1]) rfl (by
    simp only [List.mem_cons, List.not_mem_nil, or_false, forall_eq]
    exact sampleNode _ _ _ _ _ (by decide) (by simp)) (by intro es h; cases h) rfl

theorem mC_dumped : DumpedUnder sampleEnv.mapping (theObj (dumpOf mC)) :=
  dumpOf_dumped (m := mC) (fs := [mC1, mC2, mC3]) rfl (by
    simp only [List.mem_cons, List.not_mem_nil, or_false]
    rintro f (rfl | rfl | rfl) <;> exact sampleNode _ _ _ _ _ (by decide) (by simp)) (by intro es h; cases h) rfl

/-- The hypotheses of C18, C19, C20 and C27 hold of the three dumps. -/
example : (MTree.node id (.leaf (theObj (dumpOf mC))) (.node List.reverse (.leaf (theObj (dumpOf mA)))
    (.leaf (theObj (dumpOf mB))))).Ok sid where
  orders := ⟨fun _ => .refl _, trivial, fun l => List.reverse_perm l, trivial, trivial⟩
  dumped := by
    simp only [MTree.leaves, List.cons_append, List.nil_append, List.mem_cons, List.not_mem_nil, or_false]
    rintro o (rfl | rfl | rfl)
    · exact ⟨_, mC_dumped⟩
    · exact ⟨_, mA_dumped⟩
    · exact ⟨_, mB_dumped⟩
  ids := by decide
  files := by decide
  origins := by decide

/-- The hypotheses of C22 and C23 hold of two of them, with the records of both in different files. -/
example : Larger (theObj (dumpOf mA)) (theObj (dumpOf mC)) (theObj (dumpOf mC)) (theObj (dumpOf mA)) ∧
    Accumulated sampleEnv.mapping (theObj (dumpOf mC)) ∧ DumpedUnder sampleEnv.mapping (theObj (dumpOf mA)) ∧
    (theObj (dumpOf mA)).files.getMapping = [str% "git:x.c", str% "/c/y.c"] ∧
    (theObj (dumpOf mC)).files.getMapping = [str% "/c/y.c", str% "git:x.c"] :=
  ⟨.inr ⟨by decide, rfl, rfl⟩, .dump _ mC_dumped, mA_dumped, by decide, by decide⟩

/-- The symbol of an object at an address. -/
def symAt (o : ObjectInfo) (a : Nat) : Symbol :=
  (o.symbols.get? a).getD { name := [], isPublic := true, isMultiple := false, isSynthetic := false, rva := 0, len := 0, parameterSize := 0, source := Lines.new }

/-- What the merge of two dumps makes of the renumbered function. -/
example : (theObj (ObjectInfo.merge id (theObj (dumpOf mA)) (theObj (dumpOf mC)))).symbols.map (fun e => (e.1, e.2.name)) =
    [(0x1000, str% "a()"), (0x3000, str% "c1()"), (0x3010, str% "c2()"), (0x3020, str% "c3()")] := by decide

example : (let M := theObj (ObjectInfo.merge id (theObj (dumpOf mA)) (theObj (dumpOf mC)))
    (symAt M 0x1000).readInlines M.files.getMapping M.inlineOrigins) =
    [⟨0, 10, some (str% "/c/y.c"), some (str% "g()"), [⟨0x100a, 2⟩]⟩,
     ⟨0, 10, some (str% "git:x.c"), some (str% "g()"), [⟨0x1002, 2⟩]⟩] := by decide

/-- The hypotheses of C24 and C25 hold: a stripped object and one with debug information, unwind text in both. -/
example : (let M := theObj (ObjectInfo.merge id (theObj (dumpOf mA)) (theObj (dumpOf mC)))
    ((theObj (dumpOf mA)).binType, (theObj (dumpOf mC)).binType, M.fileName, M.codeId, M.stack)) =
    (.debugInfo, .stripped, str% "lib.so", some (str% "AB12"), str% "STACK CFI 2\nSTACK CFI 1\n") := by decide

/-! ## Where the properties fail -/

/-- **C22 and C23 fail for three objects.** `A` and `B` are merged first, and the result is then the smaller operand of the
merge with `C`: the lines of `a()` in `x.c` end up in `y.c`, and one of its two INLINE records is lost.  (The path table of
a merged object has no entry for the files that were appended, so that the next merge renumbers them all to 0.) -/
theorem C22_three_way_witness :
    ∃ A B C AB M : ObjectInfo, DumpedUnder sampleEnv.mapping A ∧ DumpedUnder sampleEnv.mapping B ∧
      DumpedUnder sampleEnv.mapping C ∧
      ObjectInfo.merge id A B = .ok AB ∧ ObjectInfo.merge id AB C = .ok M ∧
      (symAt A 0x1000).name = (symAt M 0x1000).name ∧
      (symAt A 0x1000).readLines A.files.getMapping ≠ (symAt M 0x1000).readLines M.files.getMapping ∧
      ((symAt A 0x1000).readLines A.files.getMapping).map (·.path) =
        [some (str% "git:x.c"), some (str% "git:x.c"), some (str% "git:x.c"), some (str% "/c/y.c"), some (str% "git:x.c"),
         some (str% "/c/y.c")] ∧
      ((symAt M 0x1000).readLines M.files.getMapping).map (·.path) =
        [some (str% "/c/y.c"), some (str% "/c/y.c"), some (str% "/c/y.c"), some (str% "/c/y.c"), some (str% "/c/y.c"),
         some (str% "/c/y.c")] ∧
      ((symAt A 0x1000).readInlines A.files.getMapping A.inlineOrigins).length = 2 ∧
      ((symAt M 0x1000).readInlines M.files.getMapping M.inlineOrigins).length = 1 :=
  ⟨_, _, _, theObj (ObjectInfo.merge id (theObj (dumpOf mA)) (theObj (dumpOf mB))),
    theObj (ObjectInfo.merge id (theObj (ObjectInfo.merge id (theObj (dumpOf mA)) (theObj (dumpOf mB)))) (theObj (dumpOf mC))),
    mA_dumped, mB_dumped, mC_dumped, by decide, by decide, by decide, by decide, by decide, by decide, by decide, by decide⟩

def pubA (n : Str) : ObjInput := objOf sid true [] [⟨some n, 0x2000, 0x10⟩]

/-- **C21 fails when the objects have equally many symbols.** -/
theorem C21_order_witness :
    ∃ A B : ObjectInfo, DumpedUnder sampleEnv.mapping A ∧ DumpedUnder sampleEnv.mapping B ∧ A.debugId = B.debugId ∧
      ObjectInfo.merge id A B ≠ ObjectInfo.merge id B A :=
  ⟨theObj (dumpOf (pubA (str% "p"))), theObj (dumpOf (pubA (str% "q"))),
    dumpOf_dumped (m := pubA (str% "p")) (fs := []) rfl (by simp) (by intro es h; cases h) rfl,
    dumpOf_dumped (m := pubA (str% "q")) (fs := []) rfl (by simp) (by intro es h; cases h) rfl, by decide, by decide⟩

def phL : ObjInput := peOf sid [] [⟨0x5000, 0x5010⟩, ⟨0x6000, 0x6010⟩] []
def phR : ObjInput := objOf sid true [] [⟨some (str% "p"), 0x5000, 0x10⟩]
def phF : ObjInput := objOf sid true [mB1'] []
  where mB1' : Func := .mk 0x5000 0x10 (nm (str% "real")) sampleComp [⟨0x5000, some 16, sampleFile3, 20⟩] []

theorem phL_dumped : DumpedUnder sampleEnv.mapping (theObj (dumpOf phL)) :=
  dumpOf_dumped (m := phL) (fs := []) rfl (by simp) (by intro es h; cases h; decide) rfl

/-- **C20 fails for placeholder functions.** The larger object has a placeholder FUNC, the other one a PUBLIC at its address:
the merged object has no FUNC there. -/
theorem C20_placeholder_lost_witness :
    ∃ L R M : ObjectInfo, DumpedUnder sampleEnv.mapping L ∧ DumpedUnder sampleEnv.mapping R ∧
      ObjectInfo.merge id L R = .ok M ∧ (symAt L 0x5000).isPublic = false ∧ (symAt R 0x5000).isPublic = true ∧
      (M.symbols.get? 0x5000).map (·.isPublic) = some true :=
  ⟨_, _, theObj (ObjectInfo.merge id (theObj (dumpOf phL)) (theObj (dumpOf phR))), phL_dumped,
    dumpOf_dumped (m := phR) (fs := []) rfl (by simp) (by intro es h; cases h) rfl, by decide, by decide, by decide, by decide⟩

/-- A placeholder FUNC of the larger object also takes precedence over a real FUNC of the other one, whose name and line
records are lost. -/
theorem C20_real_function_lost_witness :
    ∃ L R M : ObjectInfo, DumpedUnder sampleEnv.mapping L ∧ DumpedUnder sampleEnv.mapping R ∧
      ObjectInfo.merge id L R = .ok M ∧ (symAt R 0x5000).name = str% "real()" ∧ (symAt R 0x5000).isPublic = false ∧
      (symAt M 0x5000).name = str% "<unknown in /lib/f.so>" ∧
      (symAt M 0x5000).source.lines = [] ∧ (symAt R 0x5000).source.lines ≠ [] :=
  ⟨_, _, theObj (ObjectInfo.merge id (theObj (dumpOf phL)) (theObj (dumpOf phF))), phL_dumped,
    dumpOf_dumped (m := phF) (fs := [phF.mB1']) rfl (by
      simp only [List.mem_cons, List.not_mem_nil, or_false, forall_eq]
      exact sampleNode _ _ _ _ _ (by decide) (by simp)) (by intro es h; cases h) rfl,
    by decide, by decide, by decide, by decide, by decide, by decide⟩

/-- The hypotheses of C20 hold of a larger object with a placeholder and a smaller one with a PUBLIC elsewhere. -/
example : (theObj (ObjectInfo.merge id (theObj (dumpOf mA)) (theObj (dumpOf phL)))).symbols.map
    (fun e => (e.1, e.2.isPublic, e.2.isMultiple)) = [(0x1000, false, false), (0x5000, false, false), (0x6000, false, false)] := by
  decide

/-- C20_exact applies to a larger object with placeholders at 0x5000 and 0x6000 and a smaller one with a PUBLIC at 0x5000:
there is a FUNC at 0x6000 after the merge, and at 0x5000 a symbol, but no FUNC. -/
example (M : ObjectInfo) (h : ObjectInfo.merge id (theObj (dumpOf phL)) (theObj (dumpOf phR)) = .ok M) :
    (∃ m, M.symbols.get? 0x6000 = some m ∧ m.isPublic = false) ∧ (∃ m, M.symbols.get? 0x5000 = some m) ∧
    (¬ InsideClosest M.symbols 0x5000 → ¬ ∃ m, M.symbols.get? 0x5000 = some m ∧ m.isPublic = false) := by
  have hL : (MTree.leaf (theObj (dumpOf phL))).Ok sid :=
    ⟨trivial, by intro o ho; rw [List.mem_singleton.mp ho]; exact ⟨_, phL_dumped⟩,
      by decide, by decide, by decide⟩
  have hR : (MTree.leaf (theObj (dumpOf phR))).Ok sid :=
    ⟨trivial, by
      intro o ho; rw [List.mem_singleton.mp ho]
      exact ⟨_, dumpOf_dumped (m := phR) (fs := []) rfl (by simp) (by intro es h; cases h) rfl⟩,
      by decide, by decide, by decide⟩
  have key := C20_exact id (fun _ => .refl _) _ _ sid hL hR (by decide) (by decide) _ _ _ _ M rfl rfl
    (.inl ⟨by decide, rfl, rfl⟩) h
  refine ⟨(key 0x6000).1.mpr (.inr ⟨_, rfl, by decide, ?_⟩), (key 0x5000).2.mpr (.inl ⟨_, rfl⟩), ?_⟩
  · rintro ⟨_, _, x, hx, _⟩
    have e : (theObj (dumpOf phR)).symbols.get? 0x6000 = none := by decide
    rw [e] at hx; cases hx
  · intro hin hm
    rcases (key 0x5000).1.mp hm with ⟨x, hx, hp⟩ | ⟨s, hs, _, hno⟩
    · have e : (theObj (dumpOf phR)).symbols.get? 0x5000 = some (symAt (theObj (dumpOf phR)) 0x5000) := by decide
      rw [e] at hx; cases hx; revert hp; decide
    · have e : (theObj (dumpOf phL)).symbols.get? 0x5000 = some (symAt (theObj (dumpOf phL)) 0x5000) := by decide
      rw [e] at hs; cases hs
      exact hno ⟨by decide, hin, _, rfl, by decide, by decide⟩

end DumpSyms
