import Verif.Proof.Checked
import Verif.Props.MergeSamples
/-!
# C102: a build with overflow checks makes the same symbol files
-/
namespace DumpSyms
open ObjectInfo Collector

/-- **C02 (no wrap).** The subtractions and the addition with which the sizes of the line records are computed never go out of range, whatever the function
start and length: with overflow checks the same records come out, and no crash. -/
theorem C02_no_wrap (ops : List LOp) (symRva symLen : Nat) (hb : ∀ t ∈ lineEntries ops, t.1 < M32) :
    ∃ L, (Lines.run ops).finalize symRva symLen = .ok L ∧
      Checked.computeLen (Lines.run ops).ensureOrder symRva symLen = .ok L := by
  refine ⟨_, Lines.finalize_eq _ _ _, ?_⟩
  rw [← Lines.finalize_eq]
  unfold Checked.computeLen Lines.finalize Lines.computeLen
  rw [Checked.setLens_eq]
  · rfl
  · rw [Lines.ensureOrder_run_lines]; exact Lines.isort_rva_sorted _
  · intro x hx
    rw [Lines.ensureOrder_run_lines, mem_isort, Lines.run_lines, List.mem_map] at hx
    obtain ⟨t, ht, rfl⟩ := hx
    exact hb t ht

example : (∀ t ∈ lineEntries sampleOps, t.1 < M32) ∧
    (Checked.computeLen (Lines.run sampleOps).ensureOrder 0x1000 0xFFFFFFFF).bind (fun L => .ok (L.lines.map fun l => (l.rva, l.len))) =
      .ok [(0x1000, 0x10), (0x1010, 0), (0x1010, 0)] := by decide

/-- **C03 (no wrap).** With ranges that end below 2^32, no addition wraps when a function's lines and call sites are finalized. -/
theorem C03_no_wrap (ops : List LOp) (symRva symLen : Nat) (hb : ∀ t ∈ lineEntries ops, t.1 < M32)
    (hr : ∀ site, ∀ r ∈ rangesOf site ops, r.rva + r.len < M32) :
    Checked.finalize (Lines.run ops) symRva symLen = (Lines.run ops).finalize symRva symLen := by
  refine (Checked.finalize_same (F := True) ops ?_ symRva symLen).eq trivial
  intro op ho
  cases op with
  | line r n f => exact hb (r, n, f) (List.mem_filterMap.mpr ⟨_, ho, rfl⟩)
  | inl s r => exact fun _ => hr s r (List.mem_filterMap.mpr ⟨_, ho, by simp⟩)

example : (Checked.finalize (Lines.run sampleOps) 0x1000 0x20).bind (fun L => .ok (L.inlines.get? ⟨0, 0, 5, 1⟩)) =
    .ok (some [⟨0x1000, 12⟩, ⟨0x1014, 2⟩]) := by decide

/-- The bound is needed: the ranges of `C03_bound_needed` crash a build with overflow checks. -/
theorem C03_bound_crash : Checked.joinRanges [⟨0, 2147483648⟩, ⟨2147483648, 2147483648⟩] = .panic := by decide

/-- **C102**, whatever the object file: the build with overflow checks crashes, or makes the same object. -/
theorem C102_same_or_crash {env : CEnv} (hs : SortsByStart env.us) (inlines : Bool) (pl : Platform) (main : ObjInput) (name : Str)
    (pe : Option ObjInput) (peName : Option Str) :
    Checked.fromObject env inlines pl main name pe peName = .panic ∨
      Checked.fromObject env inlines pl main name pe peName = fromObject env inlines pl main name pe peName :=
  (Checked.fromObject_same (F := ∀ fs, main.functions = .ok fs → main.Fits fs) (fun l _ h => (hs l).1.mem_iff.mp h) inlines pl main name pe
    peName (fun h => h)).or

/-- **C102** when everything in the object file ends below 2^32: both builds make the same object, or fail in the same way. Missing: object
files that reach 2^32 (see `C102_witness`). -/
theorem C102_object_partial {env : CEnv} (hs : SortsByStart env.us) (inlines : Bool) (pl : Platform) (main : ObjInput) (name : Str)
    (pe : Option ObjInput) (peName : Option Str) (hf : ∀ fs, main.functions = .ok fs → main.Fits fs) :
    Checked.fromObject env inlines pl main name pe peName = fromObject env inlines pl main name pe peName ∧
      ∀ o, fromObject env inlines pl main name pe peName = .ok o → o.symbols.Below := by
  rcases Checked.fromObject_same (F := ∀ fs, main.functions = .ok fs → main.Fits fs) (fun l _ h => (hs l).1.mem_iff.mp h) inlines pl main name pe
    peName (fun h => h) with ⟨h, _⟩ | ⟨h, hp⟩
  · exact absurd hf h
  · exact ⟨h, fun o ho => hp o ho hf⟩

theorem merge_origins_length {order : List (Str × Nat) → List (Str × Nat)} {l r o : ObjectInfo} (h : ObjectInfo.merge order l r = .ok o) :
    o.inlineOrigins.length ≤ l.inlineOrigins.length + r.inlineOrigins.length := by
  have hi : ∀ a b : ObjectInfo, mergeInto order a b = .ok o → o.inlineOrigins.length ≤ a.inlineOrigins.length + b.inlineOrigins.length := by
    intro a b h
    obtain ⟨x, _, h⟩ := Res.ok_of_bind h
    obtain ⟨m, _, h⟩ := Res.ok_of_bind h
    cases h
    show (InlineOrigins.merge a.inlineOrigins b.inlineOrigins).1.length ≤ _
    unfold InlineOrigins.merge
    split
    · simp_all
    · split
      · simp_all
      · simp
  unfold ObjectInfo.merge at h
  split at h
  · cases h
  · unfold bySize at h
    split at h
    · exact hi _ _ h
    · have := hi r l h; omega

namespace MTree

theorem originCount_node (order : List (Str × Nat) → List (Str × Nat)) (l r : MTree) :
    (node order l r).originCount = l.originCount + r.originCount := by simp [originCount, leaves]

theorem same (t : MTree) {F : Prop} (hF : F → (∀ o ∈ t.leaves, o.symbols.Below) ∧ t.originCount < M32) :
    Res.Same F (fun o => (F → o.symbols.Below) ∧ o.inlineOrigins.length ≤ t.originCount) t.evalChecked t.eval := by
  induction t with
  | leaf o => exact .ok ⟨fun h => (hF h).1 o (by simp [leaves]), by simp [originCount, leaves]⟩
  | node order l r ihl ihr =>
    rw [originCount_node] at hF ⊢
    unfold evalChecked eval
    refine (ihl fun h => ⟨fun o ho => (hF h).1 o (by simp [leaves, ho]), by have := (hF h).2; omega⟩).bind fun a ha => ?_
    refine (ihr fun h => ⟨fun o ho => (hF h).1 o (by simp [leaves, ho]), by have := (hF h).2; omega⟩).bind fun b hb => ?_
    rcases Checked.merge_same order a b ha.1 hb.1 (fun h => by have := (hF h).2; omega) with h | ⟨h, hp⟩
    · exact .inl h
    · exact .inr ⟨h, fun o ho => ⟨hp o ho, by have := merge_origins_length ho; omega⟩⟩

end MTree

/-- **C102** for files merged in any order: the build with overflow checks crashes, or makes the same object. -/
theorem C102_merge_same_or_crash (t : MTree) : t.evalChecked = .panic ∨ t.evalChecked = t.eval :=
  (t.same (F := (∀ o ∈ t.leaves, o.symbols.Below) ∧ t.originCount < M32) (fun h => h)).or

/-- **C102** for files merged in any order, when all that goes in ends below 2^32 and there are fewer than 2^32 inlined functions. -/
theorem C102_merge_partial (t : MTree) (h : ∀ o ∈ t.leaves, o.symbols.Below) (ho : t.originCount < M32) : t.evalChecked = t.eval := by
  rcases t.same (F := (∀ o ∈ t.leaves, o.symbols.Below) ∧ t.originCount < M32) (fun h => h) with ⟨hn, _⟩ | ⟨h, _⟩
  · exact absurd ⟨h, ho⟩ hn
  · exact h

/-- `dumpOf` in a build with overflow checks. -/
def checkedDumpOf (m : ObjInput) : Res ObjectInfo := Checked.fromObject sampleCEnv true .linux m (str% "/lib/f.so") none none

/-- A function that reaches 2^32, with a public symbol in it. -/
def edgeObj : ObjInput := objOf sid true [.mk 0xFFFFFFF0 0x10 (nm (str% "e")) sampleComp [] []] [⟨some (str% "p"), 0xFFFFFFF8, 0⟩]
/-- A line entry of a function is at the last 64-bit address. -/
def edgeLine : ObjInput := objOf sid true [.mk 0x1000 0x20 (nm (str% "e")) sampleComp
  [⟨0x1000, some 4, sampleFile1, 10⟩, ⟨M64 - 1, none, sampleFile1, 11⟩] []] []
/-- The last symbol of a PDB ends at 2^32, so that the symbol after it is at 0. -/
def edgeLast : ObjInput := { objOf sid true [.mk 0xFFFFFFF0 0x10 (nm (str% "e")) sampleComp [] []] [] with kind := .pdb }
/-- Objects with the same debug id, one with a function that reaches 2^32 and the other with a public symbol in it. -/
def edgeTree : MTree := .node id (.leaf (theObj (dumpOf (objOf sid true [mA1, .mk 0xFFFFFFF0 0x10 (nm (str% "e")) sampleComp [] []] []))))
  (.leaf (theObj (dumpOf (objOf sid false [] [⟨some (str% "p"), 0xFFFFFFF8, 0⟩]))))

def Res.symAddrs : Res ObjectInfo → Option (List Nat)
  | .ok o => some (o.symbols.map (·.1))
  | _ => none

/-- **C102 is false** when a symbol reaches 2^32 or a line 2^64: the release build goes on with the wrapped address, the other one crashes. The
release build also keeps the public symbol inside the function then. -/
theorem C102_witness :
    ((dumpOf edgeObj).symAddrs = some [0xFFFFFFF0, 0xFFFFFFF8] ∧ checkedDumpOf edgeObj = .panic) ∧
    ((dumpOf edgeLast).symAddrs = some [0, 0xFFFFFFF0] ∧ checkedDumpOf edgeLast = .panic) ∧
    ((dumpOf edgeLine).symAddrs = some [0x1000] ∧ checkedDumpOf edgeLine = .panic) ∧
    (edgeTree.eval.symAddrs = some [0x1000, 0xFFFFFFF0, 0xFFFFFFF8] ∧ edgeTree.evalChecked = .panic) := by decide +kernel

/-- The hypotheses of `C102_object_partial` hold of an object file with inlined functions, which gives an object with two inlined functions. -/
example : (∀ fs, mA.functions = .ok fs → mA.Fits fs) ∧ checkedDumpOf mA = dumpOf mA ∧ (dumpOf mA).symAddrs = some [0x1000] := by
  refine ⟨?_, ?_, ?_⟩
  · intro fs h
    cases h
    refine ⟨?_, ?_, by intro es h; cases h⟩
    · intro f hf
      simp only [List.map_cons, List.map_nil, List.mem_cons, List.not_mem_nil, or_false, Option.some.injEq] at hf
      subst hf
      refine ⟨by decide, .mk _ _ _ _ _ _ (by decide) ?_⟩
      intro g hg
      simp only [List.mem_cons, List.not_mem_nil, or_false] at hg
      rcases hg with rfl | rfl <;> exact .mk _ _ _ _ _ _ (by decide) (by intro g hg; cases hg)
    · intro ps hp p hpm
      rcases hp with rfl | ⟨x, ⟨_, _, e, _⟩, _⟩ | ⟨rfl, _⟩
      · cases hpm
      · injection e with e
        simp at e
      · cases hpm
  · decide +kernel
  · decide +kernel

/-- The hypotheses of `C102_merge_partial` hold of two objects, and the merge does something. -/
example : (∀ o ∈ (MTree.node id (.leaf (theObj (dumpOf mA))) (.leaf (theObj (dumpOf mC)))).leaves, o.symbols.Below) ∧
    (MTree.node id (.leaf (theObj (dumpOf mA))) (.leaf (theObj (dumpOf mC)))).evalChecked.symAddrs = some [0x1000, 0x3000, 0x3010, 0x3020] := by
  refine ⟨?_, by decide +kernel⟩
  intro o ho
  simp only [MTree.leaves, List.cons_append, List.nil_append, List.mem_cons, List.not_mem_nil, or_false] at ho
  rcases ho with rfl | rfl
  · show ∀ e ∈ _, _
    decide +kernel
  · show ∀ e ∈ _, _
    decide +kernel

end DumpSyms
