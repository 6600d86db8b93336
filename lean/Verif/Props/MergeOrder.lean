import Verif.Props.MergeSamples
/-!
# C21: what the order of the arguments decides when both objects have equally many symbols
-/
namespace DumpSyms
open Collector ObjectInfo Symbols

theorem mergeInto_header {order : List (Str × Nat) → List (Str × Nat)} {L R M : ObjectInfo} (h : mergeInto order L R = .ok M) :
    M.stack = mergeStack L.stack R.stack ∧ M.codeId = L.codeId.or R.codeId ∧
      M.fileName = (if R.binType = .stripped then R.fileName else L.fileName) ∧
      M.cpu = L.cpu ∧ M.peName = L.peName ∧ M.platform = L.platform ∧ M.debugId = L.debugId := by
  unfold mergeInto at h
  generalize L.files.merge order R.files = x at h
  cases x with
  | ok x =>
    obtain ⟨fs, t⟩ := x
    simp only [Res.bind_ok] at h
    generalize mergeSyms t (InlineOrigins.merge L.inlineOrigins R.inlineOrigins).2 R.symbols L.symbols = y at h
    cases y with
    | ok y => cases h; exact ⟨rfl, rfl, rfl, rfl, rfl, rfl, rfl⟩
    | err m => cases h
    | panic => cases h
  | err m => cases h
  | panic => cases h

/-- A text with a newline at its end. -/
def closedText (s : Str) : Str := if s.getLast? = some '\n' then s else s ++ ['\n']

/-- **C21, the header, with equally many symbols.** The name does not depend on the order exactly when both objects have the same name or one of them is stripped and the
other is not; the code id, when one of them has none or both the same; the unwind records, when one of them has none or both texts give the same one after the other.  The other
fields are those of the second argument. -/
theorem C21_equal_header (order : List (Str × Nat) → List (Str × Nat)) (l r A B : ObjectInfo)
    (hc : l.symbols.length = r.symbols.length) (hA : ObjectInfo.merge order l r = .ok A) (hB : ObjectInfo.merge order r l = .ok B) :
    (A.fileName = B.fileName ↔ l.fileName = r.fileName ∨ (l.binType = .stripped ∧ r.binType ≠ .stripped) ∨
      (l.binType ≠ .stripped ∧ r.binType = .stripped)) ∧
    (A.codeId = B.codeId ↔ l.codeId = none ∨ r.codeId = none ∨ l.codeId = r.codeId) ∧
    (A.stack = B.stack ↔ l.stack = [] ∨ r.stack = [] ∨ closedText l.stack ++ r.stack = closedText r.stack ++ l.stack) ∧
    (A.cpu = r.cpu ∧ B.cpu = l.cpu) ∧ (A.platform = r.platform ∧ B.platform = l.platform) ∧ (A.peName = r.peName ∧ B.peName = l.peName) ∧
    A.debugId = B.debugId := by
  have hd : l.debugId = r.debugId := by
    unfold ObjectInfo.merge at hA
    by_cases hne : l.debugId ≠ r.debugId
    · rw [if_pos hne] at hA; cases hA
    · exact Decidable.not_not.mp hne
  rw [Larger.merge (L := r) (R := l) (.inr ⟨by omega, rfl, rfl⟩) hd] at hA
  rw [Larger.merge (L := l) (R := r) (.inr ⟨by omega, rfl, rfl⟩) hd.symm] at hB
  obtain ⟨a1, a2, a3, a4, a5, a6, a7⟩ := mergeInto_header hA
  obtain ⟨b1, b2, b3, b4, b5, b6, b7⟩ := mergeInto_header hB
  refine ⟨?_, ?_, ?_, ⟨a4, b4⟩, ⟨a6, b6⟩, ⟨a5, b5⟩, by rw [a7, b7, hd]⟩
  · rw [a3, b3]
    by_cases h1 : l.binType = .stripped <;> by_cases h2 : r.binType = .stripped <;> simp [h1, h2, eq_comm]
  · rw [a2, b2]
    cases l.codeId <;> cases r.codeId <;> simp [eq_comm]
  · rw [a1, b1]
    unfold mergeStack closedText
    by_cases h1 : l.stack = [] <;> by_cases h2 : r.stack = [] <;> simp [h1, h2, eq_comm]

/-- **C21, the functions, with equally many symbols.** Where both objects have a function, not a placeholder, the one of the second argument is kept. So the order decides
wherever the two have different names. -/
theorem C21_equal_functions (order : List (Str × Nat) → List (Str × Nat)) (ho : IterOrder order) (tl tr : MTree)
    (id : Str) (hl : tl.Ok id) (hr : tr.Ok id) (hf : tl.fileCount + tr.fileCount ≤ M32)
    (hor : tl.originCount + tr.originCount < M32) (l r : ObjectInfo) (hl' : tl.eval = .ok l) (hr' : tr.eval = .ok r)
    (hc : l.symbols.length = r.symbols.length) :
    ∃ A B, ObjectInfo.merge order l r = .ok A ∧ ObjectInfo.merge order r l = .ok B ∧
      ∀ a s x, l.symbols.get? a = some s → r.symbols.get? a = some x → s.isPublic = false → x.isPublic = false →
        s.isSynthetic = false → x.isSynthetic = false →
        A.symbols.get? a = some { x with isMultiple := true } ∧ B.symbols.get? a = some { s with isMultiple := true } ∧
        (s.name ≠ x.name → A.symbols.get? a ≠ B.symbols.get? a) := by
  obtain ⟨A, hA, a1, _⟩ := C20_merged_symbols_partial order ho tl tr id hl hr hf hor l r r l hl' hr' (.inr ⟨by omega, rfl, rfl⟩)
  obtain ⟨B, hB, b1, _⟩ := C20_merged_symbols_partial order ho tr tl id hr hl (by omega) (by omega) r l l r hr' hl' (.inr ⟨by omega, rfl, rfl⟩)
  refine ⟨A, B, hA, hB, fun a s x hs hx ps px ss sx => ?_⟩
  obtain ⟨m, m1, m2, _⟩ := a1 a x hx px (.inl sx)
  obtain ⟨n, n1, n2, _⟩ := b1 a s hs ps (.inl ss)
  rw [m2 s hs ps] at m1
  rw [n2 x hx px] at n1
  refine ⟨m1, n1, ?_⟩
  rw [m1, n1]
  exact fun hn h => hn (congrArg Symbol.name (Option.some.inj h)).symm

/-! ## Examples -/

/-- A stripped object with another function at the address of the one in `mB`. -/
def mB' : ObjInput := objOf sid false [.mk 0x2000 0x10 (nm (str% "c1")) sampleComp [⟨0x2000, some 16, sampleFile1, 20⟩] []] []

theorem mB'_dumped : DumpedUnder sampleEnv.mapping (theObj (dumpOf mB')) :=
  dumpOf_dumped (m := mB') (fs := [.mk 0x2000 0x10 (nm (str% "c1")) sampleComp [⟨0x2000, some 16, sampleFile1, 20⟩] []]) rfl (by
    simp only [List.mem_cons, List.not_mem_nil, or_false, forall_eq]
    exact sampleNode _ _ _ _ _ (by decide) (by simp)) (by intro es h; cases h) rfl

theorem leaf_ok {o : ObjectInfo} (h : DumpedUnder sampleEnv.mapping o) (hi : o.debugId = sid) (hf : (MTree.leaf o).fileCount ≤ M32)
    (ho : (MTree.leaf o).originCount < M32) : (MTree.leaf o).Ok sid :=
  ⟨trivial, by simpa [MTree.leaves] using ⟨_, h⟩, by simpa [MTree.leaves] using hi, hf, ho⟩

/-- A debug file and a stripped file with one symbol each: the name and the code id do not depend on the order, the unwind records and the function do. -/
example : ∃ A B, ObjectInfo.merge id (theObj (dumpOf mB)) (theObj (dumpOf mB')) = .ok A ∧ ObjectInfo.merge id (theObj (dumpOf mB')) (theObj (dumpOf mB)) = .ok B ∧
    A.fileName = B.fileName ∧ A.codeId = B.codeId ∧ A.stack ≠ B.stack ∧ A.symbols.get? 0x2000 ≠ B.symbols.get? 0x2000 := by
  obtain ⟨A, B, hA, hB, h⟩ := C21_equal_functions id (fun _ => .refl _) _ _ sid (leaf_ok mB_dumped (by decide) (by decide) (by decide))
    (leaf_ok mB'_dumped (by decide) (by decide) (by decide)) (by decide) (by decide) _ _ rfl rfl (by decide)
  obtain ⟨h1, h2, h3, _⟩ := C21_equal_header id _ _ A B (by decide) hA hB
  exact ⟨A, B, hA, hB, h1.mpr (.inr (.inr (by decide))), h2.mpr (.inl (by decide)), fun e => absurd (h3.mp e) (by decide),
    (h 0x2000 (symAt (theObj (dumpOf mB)) 0x2000) (symAt (theObj (dumpOf mB')) 0x2000) (by decide) (by decide) (by decide) (by decide) (by decide) (by decide)).2.2 (by decide)⟩

end DumpSyms
