import Verif.Proof.SizeAll
import Verif.Props.Display
/-!
# C101: the symbol file is at most linear in the debug information
-/
namespace DumpSyms
open ObjectInfo Collector Size Reader

/-- The object is the dump of an acceptable object file that can lead to at most `b`. -/
def DumpedWithin (o : ObjectInfo) (b : Size) : Prop :=
  ∃ env mem U V platform main fs inlines name pe peName embedded, ObjOk env mem U V platform main fs ∧ main.Embeds embedded ∧
    fromObject env inlines platform main name pe peName = .ok o ∧ b = ofInput main fs embedded

theorem DumpedWithin.size {o : ObjectInfo} {b : Size} (h : DumpedWithin o b) : (ofObject o).Le b := by
  obtain ⟨env, mem, U, V, pl, main, fs, inl, name, pe, peName, ps, hok, hps, hd, rfl⟩ := h
  unfold fromObject at hd
  rw [hok.functions] at hd
  obtain ⟨st, hc, hd⟩ := Res.ok_of_bind hd
  cases hd
  exact collect_size (fun l => (hok.input.sort l).1.length_eq) hok.embedded hps hc

theorem merge_size {order : List (Str × Nat) → List (Str × Nat)} (ho : IterOrder order) {l r o : ObjectInfo} (hl : l.Good) (hr : r.Good)
    (hd : l.debugId = r.debugId) (hf : l.files.idToRef.length + r.files.idToRef.length ≤ M32)
    (hor : l.inlineOrigins.length + r.inlineOrigins.length < M32) (h : ObjectInfo.merge order l r = .ok o) :
    (ofObject o).Le ((ofObject l).add (ofObject r)) := by
  obtain ⟨o', e, _, _, h4, h5⟩ := merge_good ho hl hr hd hf hor
  rw [h] at e
  cases e
  have key : ∀ L R : ObjectInfo, L.Good → mergeInto order L R = .ok o → (ofSymbols o.symbols).Le ((ofSymbols L.symbols).add (ofSymbols R.symbols)) := by
    intro L R hL hm
    obtain ⟨⟨files, t⟩, _, hm⟩ := Res.ok_of_bind hm
    simp only at hm
    obtain ⟨syms, e2, hm⟩ := Res.ok_of_bind hm
    cases hm
    exact mergeSyms_size hL.sorted e2
  have hs : (ofSymbols o.symbols).Le ((ofSymbols l.symbols).add (ofSymbols r.symbols)) := by
    rw [merge_eq hd] at h
    rcases bySize_cases l r with e | e <;> rw [e] at h
    · exact key l r hl h
    · rw [Size.add_comm]; exact key r l hr h
  exact ⟨hs.symbols, h4, Nat.le_of_eq h5, hs.lines, hs.inlines, hs.ranges⟩

theorem tree_size (t : MTree) : ∀ (_ : t.OrdersOk) (_ : ∀ o ∈ t.leaves, o.Good) (id : Str) (_ : ∀ o ∈ t.leaves, o.debugId = id)
    (_ : t.fileCount ≤ M32) (_ : t.originCount < M32) (o : ObjectInfo), t.eval = .ok o → (ofObject o).Le (total (t.leaves.map ofObject)) := by
  induction t with
  | leaf o =>
    intro _ _ _ _ _ _ o' h
    cases h
    exact .refl _
  | node order l r ihl ihr =>
    intro ho hg id hid hf hor o h
    have ef : (MTree.node order l r).fileCount = l.fileCount + r.fileCount := by
      simp [MTree.fileCount, MTree.leaves]
    have eo : (MTree.node order l r).originCount = l.originCount + r.originCount := by
      simp [MTree.originCount, MTree.leaves]
    rw [ef] at hf; rw [eo] at hor
    obtain ⟨a, a1, a2, a3, a4, a5⟩ := tree_good l ho.2.1 (fun o h => hg o (by simp [MTree.leaves, h])) id
      (fun o h => hid o (by simp [MTree.leaves, h])) (by omega) (by omega)
    obtain ⟨b, b1, b2, b3, b4, b5⟩ := tree_good r ho.2.2 (fun o h => hg o (by simp [MTree.leaves, h])) id
      (fun o h => hid o (by simp [MTree.leaves, h])) (by omega) (by omega)
    have ha := ihl ho.2.1 (fun o h => hg o (by simp [MTree.leaves, h])) id
      (fun o h => hid o (by simp [MTree.leaves, h])) (by omega) (by omega) a a1
    have hb := ihr ho.2.2 (fun o h => hg o (by simp [MTree.leaves, h])) id
      (fun o h => hid o (by simp [MTree.leaves, h])) (by omega) (by omega) b b1
    have hm : ObjectInfo.merge order a b = .ok o := by simpa [MTree.eval, a1, b1] using h
    refine (merge_size ho.1 a2 b2 (a3.trans b3.symm) (by omega) (by omega) hm).trans ?_
    rw [MTree.leaves, List.map_append, total_append]
    exact ha.add hb

theorem total_le {α : Type} {l : List α} {f g : α → Size} (h : ∀ a ∈ l, (f a).Le (g a)) : (total (l.map f)).Le (total (l.map g)) := by
  induction l with
  | nil => exact .refl _
  | cons a l ih =>
    rw [List.map_cons, List.map_cons, total_cons, total_cons]
    exact (h a (by simp)).add (ih fun b hb => h b (by simp [hb]))

theorem ofSymbols_read : ∀ (rs : List RSym) (m : List (Nat × Symbol)), rs.length = m.length →
    (∀ (i : Nat) (r : RSym) e, rs[i]? = some r → m[i]? = some e → r.Reads e.2) →
    (ofSymbols m).symbols = rs.length ∧ (ofSymbols m).lines = (rs.map fun s => s.lines.length).sum ∧
      (ofSymbols m).inlines = (rs.map fun s => s.inlines.length).sum ∧
      (ofSymbols m).ranges = (rs.map fun s => (s.inlines.map fun e => e.2.length).sum).sum
  | [], [], _, _ => ⟨rfl, rfl, rfl, rfl⟩
  | r :: rs, e :: m, hl, h => by
    obtain ⟨h1, h2, h3, h4⟩ := ofSymbols_read rs m (by simpa using hl) (fun i => by simpa using h (i + 1))
    have hr := h 0 r e rfl rfl
    have e0 : ofSymbols (e :: m) = (ofLines e.2.source).add (ofSymbols m) := rfl
    have p1 := hr.inlines.length_eq
    have p2 := (hr.inlines.map fun e => e.2.length).sum_nat
    rw [e0]
    refine ⟨?_, ?_, ?_, ?_⟩
    · show 1 + _ = _
      rw [h1, List.length_cons, Nat.add_comm]
    · show e.2.source.lines.length + _ = _
      rw [h2, List.map_cons, List.sum_cons, hr.lines]
    · show e.2.source.inlines.length + _ = _
      rw [h3, List.map_cons, List.sum_cons, p1]
    · show (e.2.source.inlines.map fun e => e.2.length).sum + _ = _
      rw [h4, List.map_cons, List.sum_cons, p2]

theorem length_of_getElem? {α β : Type} {l : List α} {k : List β} (g : Nat → β → α) (h : ∀ i : Nat, l[i]? = (k[i]?).map (g i)) : l.length = k.length := by
  refine Nat.le_antisymm ?_ ?_
  · have := h k.length
    simpa using this
  · have := h l.length
    rw [List.getElem?_eq_none (Nat.le_refl _)] at this
    simpa using this.symm

/-- What is read from the text is what is in the object. -/
theorem ofFile_eq {t : MTree} {id : Str} (h : t.Ok id) {o : ObjectInfo} (ho : t.eval = .ok o) {extra : Option (List Str)}
    (hr : o.Readable (extra.getD [])) : ∃ text f, o.display extra = .ok text ∧ readSymFile text = some f ∧ ofFile f = ofObject o := by
  obtain ⟨text, f, h1, h2, _, _, _, h3, h4, h5, h6, _⟩ := C26_round_trip t id h o ho extra hr
  refine ⟨text, f, h1, h2, ?_⟩
  obtain ⟨k1, k2, k3, k4⟩ := ofSymbols_read f.symbols o.symbols h5 h6
  have k5 := length_of_getElem? (fun i p => (i, p)) h3
  have k6 := length_of_getElem? (fun i n => (i, if Blank n then str% "<name omitted>" else n)) h4
  show Size.mk _ _ _ _ _ _ = Size.mk _ _ _ _ _ _
  rw [k1, k2, k3, k4, k5, k6]

/-- **C101.** A symbol file holds at most what the debug information accounts for: one FUNC or PUBLIC record for each function, public symbol,
entry of the exception table and executable section (for PE and PDB one more), one FILE record for each line entry, one INLINE_ORIGIN record
for each inlined call, one line record for each line entry of a function itself and two for each one of what is inlined into it, and one INLINE
record and one range for each of the latter.  For merged files it is the sum. -/
theorem C101_linear (t : MTree) (id : Str) (h : t.Ok id) (o : ObjectInfo) (ho : t.eval = .ok o) (extra : Option (List Str))
    (hr : o.Readable (extra.getD [])) (bound : ObjectInfo → Size) (hb : ∀ x ∈ t.leaves, DumpedWithin x (bound x)) :
    ∃ text f, o.display extra = .ok text ∧ readSymFile text = some f ∧ (ofFile f).Le (total (t.leaves.map bound)) := by
  obtain ⟨text, f, h1, h2, h3⟩ := ofFile_eq h ho hr
  refine ⟨text, f, h1, h2, ?_⟩
  rw [h3]
  exact (tree_size t h.orders (fun o ho => (h.dumped o ho).good) id h.ids h.files h.origins o ho).trans (total_le fun x hx => (hb x hx).size)

/-- The two lines for an entry of an inlined call are needed: both calls here cut a line of their caller in two. -/
example : ofInput mA [some mA1] [] = ⟨1, 4, 2, 6, 2, 2⟩ ∧ ofObject (theObj (dumpOf mA)) = ⟨1, 2, 1, 6, 2, 2⟩ := by decide

/-- The other bounds are met too, with and without inlined calls. -/
example : ofInput mC [some mC1, some mC2, some mC3] [] = ⟨3, 2, 0, 2, 0, 0⟩ ∧ ofObject (theObj (dumpOf mC)) = ⟨3, 2, 0, 2, 0, 0⟩ := by decide

/-- The hypotheses hold of a merged file. -/
example : ∃ bound, (∀ x ∈ (MTree.node id (.leaf (theObj (dumpOf mC))) (.leaf (theObj (dumpOf mA)))).leaves, DumpedWithin x (bound x)) ∧
    total ((MTree.node id (.leaf (theObj (dumpOf mC))) (.leaf (theObj (dumpOf mA)))).leaves.map bound) = ⟨4, 6, 2, 8, 2, 2⟩ ∧
    ofObject printSample = ⟨4, 2, 1, 8, 2, 2⟩ := by
  refine ⟨fun o => if o = theObj (dumpOf mA) then ofInput mA [some mA1] [] else ofInput mC [some mC1, some mC2, some mC3] [], ?_, by decide,
    by decide⟩
  simp only [MTree.leaves, List.cons_append, List.nil_append, List.mem_cons, List.not_mem_nil, or_false]
  rintro x (rfl | rfl)
  · rw [if_neg (by decide)]
    refine ⟨sampleCEnv, sampleMem, sampleU, sampleV, .linux, mC, [some mC1, some mC2, some mC3], true, str% "/lib/f.so", none, none, [], ?_, ?_, rfl, rfl⟩
    · refine ⟨rfl, ⟨by decide, by decide, sampleSort, ?_⟩, (by intro es h; cases h), (fun h => by cases h), embeddedInside_of_kind (by intro l h; cases h; rfl)⟩
      intro f hf
      simp only [List.mem_cons, List.not_mem_nil, or_false, Option.some.injEq] at hf
      rcases hf with rfl | rfl | rfl <;> exact sampleNode _ _ _ _ _ (by decide) (by simp)
    · exact .inr ⟨rfl, fun h ⟨b, a, e, _⟩ => by have : ([] : List Section) = b ++ h :: a := by injection e
                                                simp at this⟩
  · rw [if_pos rfl]
    refine ⟨sampleCEnv, sampleMem, sampleU, sampleV, .linux, mA, [some mA1], true, str% "/lib/f.so", none, none, [], ?_, ?_, rfl, rfl⟩
    · refine ⟨rfl, ⟨by decide, by decide, sampleSort, ?_⟩, (by intro es h; cases h), (fun h => by cases h), embeddedInside_of_kind (by intro l h; cases h; rfl)⟩
      intro f hf
      simp only [List.mem_cons, List.not_mem_nil, or_false, Option.some.injEq] at hf
      subst hf
      exact mA1_all
    · exact .inr ⟨rfl, fun h ⟨b, a, e, _⟩ => by have : ([] : List Section) = b ++ h :: a := by injection e
                                                simp at this⟩

end DumpSyms
