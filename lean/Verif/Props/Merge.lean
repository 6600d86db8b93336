import Verif.Proof.Dumped
/-!
# C18–C25, C27: merging objects
-/
namespace DumpSyms
open Collector ObjectInfo Symbols

theorem Dumped.good {o : ObjectInfo} (h : Dumped o) : o.Good := by
  obtain ⟨_, env, mem, U, V, platform, main, fs, inlines, name, pe, peName, h1, _, h2⟩ := h
  obtain ⟨o', st, ps, seen, a1, a2, _⟩ := fromObject_spec h1 inlines name pe peName
  rw [h2] at a1; cases a1; exact a2

theorem merge_eq {order : List (Str × Nat) → List (Str × Nat)} {l r : ObjectInfo} (h : l.debugId = r.debugId) :
    ObjectInfo.merge order l r = mergeInto order (bySize l r).1 (bySize l r).2 := by
  unfold ObjectInfo.merge
  rw [if_neg (by simp [h])]

theorem bySize_cases (l r : ObjectInfo) : bySize l r = (l, r) ∨ bySize l r = (r, l) := by
  unfold bySize; split <;> simp

theorem merge_good {order : List (Str × Nat) → List (Str × Nat)} (ho : IterOrder order) {l r : ObjectInfo} (hl : l.Good)
    (hr : r.Good) (hd : l.debugId = r.debugId) (hf : l.files.idToRef.length + r.files.idToRef.length ≤ M32)
    (hor : l.inlineOrigins.length + r.inlineOrigins.length < M32) :
    ∃ o, ObjectInfo.merge order l r = .ok o ∧ o.Good ∧ o.debugId = l.debugId ∧
      o.files.idToRef.length ≤ l.files.idToRef.length + r.files.idToRef.length ∧
      o.inlineOrigins.length = l.inlineOrigins.length + r.inlineOrigins.length := by
  rw [merge_eq hd]
  rcases bySize_cases l r with h | h <;> rw [h] <;> simp only
  · obtain ⟨M, t, a1, a2, a3, a4, _, a5, _⟩ := mergeInto_spec ho hl hr hf hor
    obtain ⟨F, t', f1, _, _, f4, _⟩ := SourceMap.merge_spec ho hl.files hr.files hf
    rw [a3] at f1
    simp only [Res.ok.injEq, Prod.mk.injEq] at f1
    refine ⟨M, a1, a2, a5, by rw [f1.1]; exact f4, ?_⟩
    rw [a4]; exact (originsMerge_spec _ _ hor).2.1
  · obtain ⟨M, t, a1, a2, a3, a4, _, a5, _⟩ := mergeInto_spec ho hr hl (by omega) (by omega)
    obtain ⟨F, t', f1, _, _, f4, _⟩ := SourceMap.merge_spec ho hr.files hl.files (by omega)
    rw [a3] at f1
    simp only [Res.ok.injEq, Prod.mk.injEq] at f1
    refine ⟨M, a1, a2, a5.trans hd.symm, by rw [f1.1]; omega, ?_⟩
    rw [a4, (originsMerge_spec _ _ (by omega)).2.1]; omega

theorem tree_good (t : MTree) : ∀ (_ : t.OrdersOk) (_ : ∀ o ∈ t.leaves, o.Good) (id : Str)
    (_ : ∀ o ∈ t.leaves, o.debugId = id) (_ : t.fileCount ≤ M32) (_ : t.originCount < M32),
    ∃ o, t.eval = .ok o ∧ o.Good ∧ o.debugId = id ∧ o.files.idToRef.length ≤ t.fileCount ∧
      o.inlineOrigins.length ≤ t.originCount := by
  induction t with
  | leaf o =>
    intro _ hg id hid _ _
    refine ⟨o, rfl, hg o (by simp [MTree.leaves]), hid o (by simp [MTree.leaves]), ?_, ?_⟩
    · simp [MTree.fileCount, MTree.leaves, SourceMap.getMapping]
    · simp [MTree.originCount, MTree.leaves]
  | node order l r ihl ihr =>
    intro ho hg id hid hf hor
    have ef : (MTree.node order l r).fileCount = l.fileCount + r.fileCount := by
      simp [MTree.fileCount, MTree.leaves]
    have eo : (MTree.node order l r).originCount = l.originCount + r.originCount := by
      simp [MTree.originCount, MTree.leaves]
    rw [ef] at hf; rw [eo] at hor
    obtain ⟨a, a1, a2, a3, a4, a5⟩ := ihl ho.2.1 (fun o h => hg o (by simp [MTree.leaves, h])) id
      (fun o h => hid o (by simp [MTree.leaves, h])) (by omega) (by omega)
    obtain ⟨b, b1, b2, b3, b4, b5⟩ := ihr ho.2.2 (fun o h => hg o (by simp [MTree.leaves, h])) id
      (fun o h => hid o (by simp [MTree.leaves, h])) (by omega) (by omega)
    obtain ⟨o, o1, o2, o3, o4, o5⟩ := merge_good ho.1 a2 b2 (a3.trans b3.symm) (by omega) (by omega)
    refine ⟨o, ?_, o2, o3.trans a3, by omega, by omega⟩
    simp [MTree.eval, a1, b1, o1]

theorem MTree.Ok.good {t : MTree} {id : Str} (h : t.Ok id) : ∃ o, t.eval = .ok o ∧ o.Good ∧ o.debugId = id ∧
    o.files.idToRef.length ≤ t.fileCount ∧ o.inlineOrigins.length ≤ t.originCount :=
  tree_good t h.orders (fun o ho => (h.dumped o ho).good) id h.ids h.files h.origins

theorem Good.idsDefined {o : ObjectInfo} (h : o.Good) : o.IdsDefined := by
  intro e he
  exact h.ids _ _ (SMap.get?_of_mem h.sorted he)

/-- **C18.** Dumping an acceptable object file succeeds, and every id used in the result is the number of a FILE or
INLINE_ORIGIN record of it. -/
theorem C18_dump_ids_defined (env : CEnv) (mem : Mem) (U : List Str) (V : List Name) (platform : Platform)
    (main : ObjInput) (fs : List (Option Func)) (h : ObjOk env mem U V platform main fs) (inlines : Bool)
    (name : Str) (pe : Option ObjInput) (peName : Option Str) :
    ∃ o, fromObject env inlines platform main name pe peName = .ok o ∧ o.IdsDefined := by
  obtain ⟨o, st, ps, seen, a1, a2, _⟩ := fromObject_spec h inlines name pe peName
  exact ⟨o, a1, Good.idsDefined a2⟩

/-- **C18, merging.** Merging any number of dumped objects with the same debug id, in any order and with any hash
iteration orders, succeeds and every id used in the result is the number of a FILE or INLINE_ORIGIN record of it
(as long as there are at most 2^32 files and fewer than 2^32 inline names). -/
theorem C18_merge_ids_defined (t : MTree) (id : Str) (h : t.Ok id) :
    ∃ o, t.eval = .ok o ∧ o.debugId = id ∧ o.IdsDefined := by
  obtain ⟨o, h1, h2, h3, _⟩ := h.good
  exact ⟨o, h1, h3, Good.idsDefined h2⟩

/-- **C19.** Merging two objects (each dumped or itself a result of merging) fails exactly when their debug ids differ, and
a successful merge has that debug id. -/
theorem C19_merge_ok_iff (order : List (Str × Nat) → List (Str × Nat)) (ho : IterOrder order) (tl tr : MTree)
    (idl idr : Str) (hl : tl.Ok idl) (hr : tr.Ok idr) (hf : tl.fileCount + tr.fileCount ≤ M32)
    (hor : tl.originCount + tr.originCount < M32) :
    ∃ l r, tl.eval = .ok l ∧ tr.eval = .ok r ∧ l.debugId = idl ∧ r.debugId = idr ∧
    (idl = idr → ∃ o, ObjectInfo.merge order l r = .ok o ∧ o.debugId = idl) ∧
    (idl ≠ idr → ∃ msg, ObjectInfo.merge order l r = .err msg) := by
  obtain ⟨l, l1, l2, l3, l4, l5⟩ := hl.good
  obtain ⟨r, r1, r2, r3, r4, r5⟩ := hr.good
  refine ⟨l, r, l1, r1, l3, r3, ?_, ?_⟩
  · intro h
    obtain ⟨o, o1, _, o3, _⟩ := merge_good ho l2 r2 (by rw [l3, r3, h]) (by omega) (by omega)
    exact ⟨o, o1, o3.trans l3⟩
  · intro h
    unfold ObjectInfo.merge
    rw [if_pos (by rw [l3, r3]; exact h)]
    exact ⟨_, rfl⟩

/-- **C27.** In the result of merging any number of dumped objects, the addresses of the records strictly increase, in the
order in which the records are printed. -/
theorem C27_addresses_increase (t : MTree) (id : Str) (h : t.Ok id) :
    ∃ o, t.eval = .ok o ∧ (o.symbols.map fun e => e.2.rva).Pairwise (· < ·) := by
  obtain ⟨o, h1, h2, _⟩ := h.good
  refine ⟨o, h1, ?_⟩
  have : (o.symbols.map fun e => e.2.rva) = o.symbols.map (·.1) := by
    apply List.map_congr_left
    intro e he
    exact (h2.keyed _ _ (SMap.get?_of_mem h2.sorted he)).1
  rw [this, List.pairwise_map]
  exact sorted_lt h2.sorted

theorem Larger.merge {order : List (Str × Nat) → List (Str × Nat)} {l r L R : ObjectInfo} (h : Larger l r L R)
    (hd : l.debugId = r.debugId) : ObjectInfo.merge order l r = mergeInto order L R := by
  rw [merge_eq hd]
  unfold bySize
  rcases h with ⟨h, rfl, rfl⟩ | ⟨h, rfl, rfl⟩
  · rw [if_pos h]
  · rw [if_neg (by omega)]

theorem symNew_header (t : Option (List Nat)) (o : List Nat) (s : Symbol) : (symNew t o s).SameHeader s :=
  ⟨rfl, rfl, rfl, rfl, rfl, rfl⟩

/-- **C20.** Partial: the property as stated (no FUNC is ever lost) is false of placeholder FUNCs, see the witnesses below.
For `L` the input with more symbols and `R` the other one:
* a FUNC of `L` that is not a placeholder is kept, with its records, and gets the `m` flag when `R` has a FUNC there too; a
  placeholder FUNC is kept unless `R` has a real PUBLIC at its address;
* a FUNC of `R` is in the result unless `L` has a FUNC there, with the `m` flag when it replaces a PUBLIC of `L`;
* a PUBLIC of `L` is kept (at most flagged) unless `R` has a FUNC there, or it is synthetic and `R` has a real PUBLIC there;
* a PUBLIC of `R` is added where `L` has nothing, unless it lies inside the closest preceding symbol of the result;
* every symbol of the result comes from the symbol of `L` or `R` at its address. -/
theorem C20_merged_symbols_partial (order : List (Str × Nat) → List (Str × Nat)) (ho : IterOrder order) (tl tr : MTree)
    (id : Str) (hl : tl.Ok id) (hr : tr.Ok id) (hf : tl.fileCount + tr.fileCount ≤ M32)
    (hor : tl.originCount + tr.originCount < M32) (l r L R : ObjectInfo) (hl' : tl.eval = .ok l) (hr' : tr.eval = .ok r)
    (hLR : Larger l r L R) :
    ∃ M, ObjectInfo.merge order l r = .ok M ∧
    (∀ a s, L.symbols.get? a = some s → s.isPublic = false →
      (s.isSynthetic = false ∨ (∀ x, R.symbols.get? a = some x → x.isPublic = true → x.isSynthetic = true)) →
      ∃ m, M.symbols.get? a = some { s with isMultiple := m } ∧
        (∀ x, R.symbols.get? a = some x → x.isPublic = false → m = true) ∧
        (R.symbols.get? a = none → m = s.isMultiple)) ∧
    (∀ a x, R.symbols.get? a = some x → x.isPublic = false →
      (∀ s, L.symbols.get? a = some s → s.isPublic = true) →
      ∃ s, M.symbols.get? a = some s ∧ s.SameHeader x ∧
        s.isMultiple = (if L.symbols.get? a = none then x.isMultiple else true)) ∧
    (∀ a s, L.symbols.get? a = some s → s.isPublic = true →
      (∀ x, R.symbols.get? a = some x → x.isPublic = true ∧ (s.isSynthetic = true → x.isSynthetic = true)) →
      ∃ m, M.symbols.get? a = some { s with isMultiple := m }) ∧
    (∀ a x, R.symbols.get? a = some x → x.isPublic = true → L.symbols.get? a = none →
      (InsideClosest M.symbols a → M.symbols.get? a = none) ∧ (¬ InsideClosest M.symbols a → M.symbols.get? a = some x)) ∧
    (∀ a s, M.symbols.get? a = some s →
      (∃ x m, L.symbols.get? a = some x ∧ s = { x with isMultiple := m }) ∨
      (∃ x, R.symbols.get? a = some x ∧ s.SameHeader x)) := by
  obtain ⟨l', l1, l2, l3, l4, l5⟩ := hl.good
  obtain ⟨r', r1, r2, r3, r4, r5⟩ := hr.good
  rw [hl'] at l1; cases l1
  rw [hr'] at r1; cases r1
  rw [hLR.merge (by rw [l3, r3])]
  have hsp : ∃ M t, mergeInto order L R = .ok M ∧
      (∀ a, R.symbols.get? a = none → M.symbols.get? a = L.symbols.get? a) ∧
      (∀ a r, R.symbols.get? a = some r → ∃ b : Bool, (b = true ↔ InsideClosest M.symbols a) ∧
        M.symbols.get? a = mergedAt t (InlineOrigins.merge L.inlineOrigins R.inlineOrigins).2 b (L.symbols.get? a) r) := by
    rcases hLR with ⟨h, rfl, rfl⟩ | ⟨h, rfl, rfl⟩
    · obtain ⟨M, t, a1, _, _, _, _, _, _, _, _, _, _, _, a2, a3⟩ := mergeInto_spec ho l2 r2 (by omega) (by omega)
      exact ⟨M, t, a1, a2, a3⟩
    · obtain ⟨M, t, a1, _, _, _, _, _, _, _, _, _, _, _, a2, a3⟩ := mergeInto_spec ho r2 l2 (by omega) (by omega)
      exact ⟨M, t, a1, a2, a3⟩
  obtain ⟨M, t, m1, m2, m3⟩ := hsp
  refine ⟨M, m1, ?_, ?_, ?_, ?_, ?_⟩
  · intro a s hs hp hor'
    cases hx : R.symbols.get? a with
    | none => exact ⟨s.isMultiple, by rw [m2 a hx, hs], by simp, by simp⟩
    | some x =>
      obtain ⟨b, _, hb⟩ := m3 a x hx
      rw [hs] at hb
      unfold mergedAt at hb
      by_cases hxp : x.isPublic = true
      · simp only [if_pos hxp] at hb
        have hno : ∀ m : Bool, (∀ y, some x = some y → y.isPublic = false → m = true) := by
          intro m y hy hyp; cases hy; rw [hxp] at hyp; cases hyp
        cases b with
        | true => exact ⟨s.isMultiple, by rw [hb]; rfl, hno _, by simp⟩
        | false =>
          simp only [Bool.false_eq_true, if_false] at hb
          by_cases h1 : x.isSynthetic = true
          · rw [if_pos h1] at hb; exact ⟨s.isMultiple, hb, hno _, by simp⟩
          · rw [if_neg h1] at hb
            have h2 : ¬ s.isSynthetic = true := by
              rcases hor' with h | h
              · simp [h]
              · exact absurd (h x hx hxp) h1
            rw [if_neg h2] at hb
            by_cases h3 : s.name ≠ x.name
            · rw [if_pos h3] at hb; exact ⟨true, hb, hno _, by simp⟩
            · rw [if_neg h3] at hb; exact ⟨s.isMultiple, hb, hno _, by simp⟩
      · simp only [if_neg hxp, hp, Bool.false_eq_true, if_false] at hb
        exact ⟨true, by rw [hb, hp], fun _ _ _ => rfl, by simp⟩
  · intro a x hx hxp hpub
    obtain ⟨b, _, hb⟩ := m3 a x hx
    unfold mergedAt at hb
    rw [if_neg (by simp [hxp])] at hb
    cases hs : L.symbols.get? a with
    | none => rw [hs] at hb; exact ⟨_, hb, symNew_header .., by simp; rfl⟩
    | some s =>
      rw [hs] at hb
      simp only [hpub s hs, if_true] at hb
      exact ⟨_, hb, symNew_header t (InlineOrigins.merge L.inlineOrigins R.inlineOrigins).2 x, by simp⟩
  · intro a s hs hp hcond
    cases hx : R.symbols.get? a with
    | none => exact ⟨s.isMultiple, by rw [m2 a hx, hs]⟩
    | some x =>
      obtain ⟨b, _, hb⟩ := m3 a x hx
      obtain ⟨c1, c2⟩ := hcond x hx
      rw [hs] at hb
      unfold mergedAt at hb
      rw [if_pos c1] at hb
      cases b with
      | true => exact ⟨s.isMultiple, hb⟩
      | false =>
        simp only [Bool.false_eq_true, if_false] at hb
        by_cases h1 : x.isSynthetic = true
        · rw [if_pos h1] at hb; exact ⟨s.isMultiple, hb⟩
        · rw [if_neg h1, if_neg (fun h => h1 (c2 h))] at hb
          by_cases h3 : s.name ≠ x.name
          · rw [if_pos h3] at hb; exact ⟨true, hb⟩
          · rw [if_neg h3] at hb; exact ⟨s.isMultiple, hb⟩
  · intro a x hx hxp hs
    obtain ⟨b, hbi, hb⟩ := m3 a x hx
    rw [hs] at hb
    unfold mergedAt at hb
    rw [if_pos hxp] at hb
    cases b with
    | true => exact ⟨fun _ => hb, fun h => absurd (hbi.mp rfl) h⟩
    | false => exact ⟨fun h => (by have := hbi.mpr h; cases this), fun _ => hb⟩
  · intro a s hs
    cases hx : R.symbols.get? a with
    | none =>
      rw [m2 a hx] at hs
      exact .inl ⟨s, s.isMultiple, hs, rfl⟩
    | some x =>
      obtain ⟨b, _, hb⟩ := m3 a x hx
      rw [hb] at hs
      cases mergedAt_from hs with
      | left y h m e => exact .inl ⟨y, m, h, e⟩
      | pub y h hp e => cases h; rw [e]; exact .inr ⟨x, rfl, rfl, rfl, rfl, rfl, rfl, rfl⟩
      | func y h hp m e =>
        cases h
        rw [e]
        exact .inr ⟨x, rfl, symNew_header t (InlineOrigins.merge L.inlineOrigins R.inlineOrigins).2 x⟩

/-- **C20, exactly which addresses have a FUNC after a merge**: those where the smaller input has one, and those where the
larger input has one, except a placeholder at whose address the smaller input has a real PUBLIC that is outside the closest
preceding merged symbol.  And exactly which addresses have a symbol: those of the larger input, those of the FUNCs of the
smaller one, and those of its PUBLICs outside the closest preceding merged symbol. -/
theorem C20_exact (order : List (Str × Nat) → List (Str × Nat)) (ho : IterOrder order) (tl tr : MTree)
    (id : Str) (hl : tl.Ok id) (hr : tr.Ok id) (hf : tl.fileCount + tr.fileCount ≤ M32)
    (hor : tl.originCount + tr.originCount < M32) (l r L R M : ObjectInfo) (hl' : tl.eval = .ok l) (hr' : tr.eval = .ok r)
    (hLR : Larger l r L R) (hM : ObjectInfo.merge order l r = .ok M) (a : Nat) :
    ((∃ m, M.symbols.get? a = some m ∧ m.isPublic = false) ↔
      (∃ x, R.symbols.get? a = some x ∧ x.isPublic = false) ∨
      (∃ s, L.symbols.get? a = some s ∧ s.isPublic = false ∧
        ¬ (s.isSynthetic = true ∧ ¬ InsideClosest M.symbols a ∧
          ∃ x, R.symbols.get? a = some x ∧ x.isPublic = true ∧ x.isSynthetic = false))) ∧
    ((∃ m, M.symbols.get? a = some m) ↔
      (∃ s, L.symbols.get? a = some s) ∨ (∃ x, R.symbols.get? a = some x ∧ x.isPublic = false) ∨
      (∃ x, R.symbols.get? a = some x ∧ x.isPublic = true ∧ ¬ InsideClosest M.symbols a)) := by
  obtain ⟨l', l1, l2, l3, l4, l5⟩ := hl.good
  obtain ⟨r', r1, r2, r3, r4, r5⟩ := hr.good
  rw [hl'] at l1; cases l1
  rw [hr'] at r1; cases r1
  rw [hLR.merge (by rw [l3, r3])] at hM
  have hsp : ∃ t, (∀ a, R.symbols.get? a = none → M.symbols.get? a = L.symbols.get? a) ∧
      (∀ a r, R.symbols.get? a = some r → ∃ b : Bool, (b = true ↔ InsideClosest M.symbols a) ∧
        M.symbols.get? a = mergedAt t (InlineOrigins.merge L.inlineOrigins R.inlineOrigins).2 b (L.symbols.get? a) r) := by
    rcases hLR with ⟨h, rfl, rfl⟩ | ⟨h, rfl, rfl⟩
    · obtain ⟨M', t, a1, _, _, _, _, _, _, _, _, _, _, _, a2, a3⟩ := mergeInto_spec ho l2 r2 (by omega) (by omega)
      rw [hM] at a1; cases a1; exact ⟨t, a2, a3⟩
    · obtain ⟨M', t, a1, _, _, _, _, _, _, _, _, _, _, _, a2, a3⟩ := mergeInto_spec ho r2 l2 (by omega) (by omega)
      rw [hM] at a1; cases a1; exact ⟨t, a2, a3⟩
  obtain ⟨t, m2, m3⟩ := hsp
  cases hx : R.symbols.get? a with
  | none => rw [m2 a hx]; simp
  | some x =>
    obtain ⟨b, hbi, hb⟩ := m3 a x hx
    rw [hb, ← hbi]
    have hh := symNew_header t (InlineOrigins.merge L.inlineOrigins R.inlineOrigins).2 x
    have hp' := hh.2.1
    unfold mergedAt
    cases hs : L.symbols.get? a with
    | none => cases hxp : x.isPublic <;> cases b <;> simp_all
    | some s =>
      cases hxp : x.isPublic <;> cases b <;> cases hxs : x.isSynthetic <;> cases hss : s.isSynthetic <;>
        cases hsp : s.isPublic <;> by_cases hn : s.name = x.name <;> simp_all

/-- **C21.** Partial: the order of the arguments does not matter when the two objects have different numbers of symbols.
It does matter when they have equally many, see `C21_order_witness`. -/
theorem C21_merge_comm_partial (order : List (Str × Nat) → List (Str × Nat)) (l r : ObjectInfo)
    (h : l.symbols.length ≠ r.symbols.length) (hd : l.debugId = r.debugId) :
    ObjectInfo.merge order l r = ObjectInfo.merge order r l := by
  rcases Nat.lt_or_ge l.symbols.length r.symbols.length with h1 | h1
  · rw [Larger.merge (L := r) (R := l) (.inr ⟨by omega, rfl, rfl⟩) hd,
      Larger.merge (L := r) (R := l) (.inl ⟨h1, rfl, rfl⟩) hd.symm]
  · rw [Larger.merge (L := l) (R := r) (.inl ⟨by omega, rfl, rfl⟩) hd,
      Larger.merge (L := l) (R := r) (.inr ⟨by omega, rfl, rfl⟩) hd.symm]

/-- **C24.** The unwind text of the merged object contains the unwind texts of both: if one is empty it is the other,
otherwise that of the object with more symbols, a newline if it does not end in one, and the other. -/
theorem C24_merged_stack (order : List (Str × Nat) → List (Str × Nat)) (l r L R M : ObjectInfo) (hLR : Larger l r L R)
    (h : ObjectInfo.merge order l r = .ok M) :
    (L.stack = [] → M.stack = R.stack) ∧ (R.stack = [] → M.stack = L.stack) ∧
    (L.stack ≠ [] → R.stack ≠ [] →
      ∃ first, M.stack = first ++ R.stack ∧ first.getLast? = some '\n' ∧ (first = L.stack ∨ first = L.stack ++ ['\n'])) := by
  have hd : l.debugId = r.debugId := by
    unfold ObjectInfo.merge at h
    by_cases hne : l.debugId ≠ r.debugId
    · rw [if_pos hne] at h; cases h
    · exact Decidable.not_not.mp hne
  rw [hLR.merge hd] at h
  have hst : M.stack = mergeStack L.stack R.stack := by
    unfold mergeInto at h
    cases h1 : L.files.merge order R.files with
    | err m => rw [h1] at h; cases h
    | panic => rw [h1] at h; cases h
    | ok f =>
      rw [h1] at h
      simp only [Res.bind_ok] at h
      cases h2 : mergeSyms f.2 (InlineOrigins.merge L.inlineOrigins R.inlineOrigins).2 R.symbols L.symbols with
      | err m => rw [h2] at h; cases h
      | panic => rw [h2] at h; cases h
      | ok s => rw [h2] at h; cases h; rfl
  rw [hst]
  unfold mergeStack
  refine ⟨?_, ?_, ?_⟩
  · intro e; simp [e]
  · intro e; simp [e]
  · intro h1 h2
    rw [if_neg h2, if_neg h1]
    by_cases h3 : L.stack.getLast? = some '\n'
    · exact ⟨L.stack, by simp [h3], h3, .inl rfl⟩
    · exact ⟨L.stack ++ ['\n'], by simp [h3], by simp, .inr rfl⟩

/-- **C25.** When one of the two objects is stripped and the other is not, the merged object has the name of the stripped
one; it has a code id if one of them has (that of the object with more symbols if both have). -/
theorem C25_merged_header (order : List (Str × Nat) → List (Str × Nat)) (l r L R M : ObjectInfo) (hLR : Larger l r L R)
    (h : ObjectInfo.merge order l r = .ok M) :
    (∀ s d, (s = l ∧ d = r ∨ s = r ∧ d = l) → s.binType = .stripped → d.binType ≠ .stripped → M.fileName = s.fileName) ∧
    M.codeId = L.codeId.or R.codeId ∧ ((l.codeId.isSome ∨ r.codeId.isSome) → M.codeId.isSome) ∧
    M.cpu = L.cpu ∧ M.platform = L.platform ∧ M.peName = L.peName := by
  have hd : l.debugId = r.debugId := by
    unfold ObjectInfo.merge at h
    by_cases hne : l.debugId ≠ r.debugId
    · rw [if_pos hne] at h; cases h
    · exact Decidable.not_not.mp hne
  rw [hLR.merge hd] at h
  have hst : M.fileName = (if R.binType = .stripped then R.fileName else L.fileName) ∧ M.codeId = L.codeId.or R.codeId ∧
      M.cpu = L.cpu ∧ M.platform = L.platform ∧ M.peName = L.peName := by
    unfold mergeInto at h
    cases h1 : L.files.merge order R.files with
    | err m => rw [h1] at h; cases h
    | panic => rw [h1] at h; cases h
    | ok f =>
      rw [h1] at h
      simp only [Res.bind_ok] at h
      cases h2 : mergeSyms f.2 (InlineOrigins.merge L.inlineOrigins R.inlineOrigins).2 R.symbols L.symbols with
      | err m => rw [h2] at h; cases h
      | panic => rw [h2] at h; cases h
      | ok s => rw [h2] at h; cases h; exact ⟨rfl, rfl, rfl, rfl, rfl⟩
  obtain ⟨a1, a2, a3⟩ := hst
  have hset : (L = l ∧ R = r) ∨ (L = r ∧ R = l) := by
    rcases hLR with ⟨_, h⟩ | ⟨_, h⟩
    · exact .inl h
    · exact .inr h
  refine ⟨?_, a2, ?_, a3⟩
  · intro s d hsd hs hdn
    rw [a1]
    rcases hset with ⟨rfl, rfl⟩ | ⟨rfl, rfl⟩ <;> rcases hsd with ⟨rfl, rfl⟩ | ⟨rfl, rfl⟩ <;> simp [hs, hdn]
  · intro hc
    rw [a2]
    rcases hset with ⟨rfl, rfl⟩ | ⟨rfl, rfl⟩ <;> rcases hc with hc | hc <;>
      (obtain ⟨c, hc⟩ := Option.isSome_iff_exists.mp hc; rw [hc]) <;> cases L.codeId <;> simp

theorem prefix_getElem? {α : Type} {A B : List α} (h : A <+: B) {i : Nat} (hi : i < A.length) : B[i]? = A[i]? := by
  obtain ⟨t, rfl⟩ := h
  exact List.getElem?_append_left hi

theorem readLines_prefix {A B : List Str} {n : Nat} {s : Symbol} (h : A <+: B) (hs : s.IdsDefined A.length n) (m : Bool) :
    Symbol.readLines B { s with isMultiple := m } = s.readLines A := by
  unfold Symbol.readLines
  apply List.map_congr_left
  intro l hl
  rw [prefix_getElem? h (hs.1 l hl)]

theorem readInlines_prefix {A B C D : List Str} {s : Symbol} (h : A <+: B) (h' : C <+: D) (hs : s.IdsDefined A.length C.length)
    (m : Bool) : Symbol.readInlines B D { s with isMultiple := m } = s.readInlines A C := by
  unfold Symbol.readInlines
  apply List.map_congr_left
  intro e he
  rw [prefix_getElem? h (hs.2 e he).1, prefix_getElem? h' (hs.2 e he).2]

theorem readLines_symNew {A B : List Str} {n : Nat} {t : Option (List Nat)} {o : List Nat} {s : Symbol}
    (hs : s.IdsDefined A.length n)
    (ht : ∀ i, i < A.length → ∃ j, fileTo t i = some j ∧ B[j]? = A[i]?) (m : Bool) :
    Symbol.readLines B { symNew t o s with isMultiple := m } = s.readLines A := by
  unfold Symbol.readLines symNew
  simp only [List.map_map]
  apply List.map_congr_left
  intro l hl
  obtain ⟨j, h1, h2⟩ := ht _ (hs.1 l hl)
  simp [fileNew, h1, h2]

theorem readInlines_symNew {A B C D : List Str} {t : Option (List Nat)} {o : List Nat} {s : Symbol}
    (hs : s.IdsDefined A.length C.length) (hn : (s.source.inlines.map (·.1)).Nodup)
    (ht : ∀ i, i < A.length → ∃ j, fileTo t i = some j ∧ B[j]? = A[i]?)
    (hinj : ∀ i i' j, i < A.length → i' < A.length → fileTo t i = some j → fileTo t i' = some j → i = i')
    (ho : ∀ i, i < C.length → ∃ j, o[i]? = some j ∧ j = k + i ∧ D[j]? = C[i]?) (m : Bool) :
    (Symbol.readInlines B D { symNew t o s with isMultiple := m }).Perm (s.readInlines A C) := by
  unfold Symbol.readInlines symNew
  simp only
  have hnd : (s.source.inlines.map fun e => siteNew t o e.1).Nodup := by
    unfold List.Nodup at hn ⊢
    rw [List.pairwise_map] at hn ⊢
    refine List.Pairwise.imp_of_mem ?_ hn
    intro a b ha hb hne heq
    apply hne
    obtain ⟨ja, a1, _⟩ := ht _ (hs.2 a ha).1
    obtain ⟨jb, b1, _⟩ := ht _ (hs.2 b hb).1
    obtain ⟨ka, a2, a3, _⟩ := ho _ (hs.2 a ha).2
    obtain ⟨kb, b2, b3, _⟩ := ho _ (hs.2 b hb).2
    obtain ⟨⟨d1, l1, f1, o1⟩, r1⟩ := a
    obtain ⟨⟨d2, l2, f2, o2⟩, r2⟩ := b
    simp only at *
    simp only [siteNew, fileNew, a1, b1, a2, b2, Option.getD_some, InlineSite.mk.injEq] at heq
    obtain ⟨e1, e2, e3, e4⟩ := heq
    simp only [InlineSite.mk.injEq]
    refine ⟨?_, ?_, ?_, ?_⟩ <;> first | assumption | skip
    all_goals first | omega | skip
    all_goals exact hinj _ _ jb (hs.2 _ ha).1 (hs.2 _ hb).1 (by simp_all) b1
  have hp := inlinesNew_perm (t := t) (o := o) s.source.inlines [] (by unfold SMap.Sorted; simp) hnd (by simp)
  refine (hp.map _).trans ?_
  simp only [List.append_nil, List.map_map]
  refine List.Perm.of_eq ?_
  apply List.map_congr_left
  intro e he
  obtain ⟨j, h1, h2⟩ := ht _ (hs.2 e he).1
  obtain ⟨j', h3, _, h4⟩ := ho _ (hs.2 e he).2
  simp [siteNew, fileNew, h1, h2, h3, h4]

theorem DumpedUnder.spec {mapping : Str → Option Str} {o : ObjectInfo} (h : DumpedUnder mapping o) :
    o.Good ∧ o.files.Follows (fun p => (mapping p).getD p) ∧ o.files.Complete := by
  obtain ⟨env, mem, U, V, platform, main, fs, inlines, name, pe, peName, h1, hm, h2⟩ := h
  obtain ⟨o', st, ps, seen, a1, a2, _, _, _, _, _, _, _, _, a3, a4, _⟩ := fromObject_spec h1 inlines name pe peName
  rw [h2] at a1; cases a1
  exact ⟨a2, by rw [← hm]; exact a3, a4⟩

theorem Accumulated.spec {mapping : Str → Option Str} {o : ObjectInfo} (h : Accumulated mapping o) :
    o.Good ∧ o.files.Follows (fun p => (mapping p).getD p) := by
  induction h with
  | dump o h => exact ⟨h.spec.1, h.spec.2.1⟩
  | merge acc o res order ho _ hd hsize hf hor hm ih =>
    obtain ⟨d1, d2, d3⟩ := hd.spec
    have hid : acc.debugId = o.debugId := by
      unfold ObjectInfo.merge at hm
      by_cases hne : acc.debugId ≠ o.debugId
      · rw [if_pos hne] at hm; cases hm
      · exact Decidable.not_not.mp hne
    rw [Larger.merge (L := acc) (R := o) (.inl ⟨hsize, rfl, rfl⟩) hid] at hm
    obtain ⟨M, t, a1, a2, a3, _⟩ := mergeInto_spec ho ih.1 d1 hf hor
    rw [hm] at a1; cases a1
    obtain ⟨F, t', b1, _, _, _, _, b2, _⟩ := SourceMap.merge_spec ho ih.1.files d1.files hf
    rw [a3] at b1; cases b1
    exact ⟨a2, b2 _ ih.2 d2⟩

/-- What the merge of two objects holds, when the table of paths of the smaller one is complete, or the larger one has no paths. -/
theorem complete_records {rename : Str → Str} {order : List (Str × Nat) → List (Str × Nat)} (ho : IterOrder order)
    {L R : ObjectInfo} (l1 : L.Good) (l2 : L.files.Follows rename) (r1 : R.Good) (r2 : R.files.Follows rename) (r3 : R.files.Complete ∨ L.files.idToRef = [])
    (hf : L.files.getMapping.length + R.files.getMapping.length ≤ M32)
    (hor : L.inlineOrigins.length + R.inlineOrigins.length < M32) :
    ∃ M, mergeInto order L R = .ok M ∧ ∀ a s, M.symbols.get? a = some s →
      ∃ x, s.SameHeader x ∧ (L.symbols.get? a = some x ∧ SameRecords M s L x ∨
        R.symbols.get? a = some x ∧ SameRecords M s R x) := by
  obtain ⟨M, t, m1, _, m2, m3, _, _, _, _, _, _, _, _, m4, m5⟩ := mergeInto_spec ho l1 r1 hf hor
  obtain ⟨F, t', b1, _, b2, _, b3, _, b4, b5⟩ := SourceMap.merge_spec ho l1.files r1.files hf
  rw [m2] at b1; cases b1
  obtain ⟨o1, _, _, o2⟩ := originsMerge_spec L.inlineOrigins R.inlineOrigins hor
  rw [← m3] at o1 o2
  refine ⟨M, m1, ?_⟩
  intro a s hs
  have hfrom : FromInput t (InlineOrigins.merge L.inlineOrigins R.inlineOrigins).2 (L.symbols.get? a) (R.symbols.get? a) s := by
    cases hr : R.symbols.get? a with
    | none => rw [m4 a hr] at hs; exact .left s hs s.isMultiple rfl
    | some r =>
      obtain ⟨b, _, hb⟩ := m5 a r hr
      rw [hb] at hs
      exact mergedAt_from hs
  have ht : ∀ i, i < R.files.getMapping.length → ∃ j, fileTo t i = some j ∧ M.files.getMapping[j]? = R.files.getMapping[i]? := by
    intro i hi
    obtain ⟨j, h1, _⟩ := b3 i hi
    exact ⟨j, h1, b4 _ l2 r2 r3 i j hi h1⟩
  cases hfrom with
  | left x h m e =>
    have hids := l1.ids a x h
    refine ⟨x, by rw [e]; exact ⟨rfl, rfl, rfl, rfl, rfl, rfl⟩, .inl ⟨h, ?_, ?_⟩⟩
    · rw [e]; exact readLines_prefix b2 hids m
    · rw [e]; exact List.Perm.of_eq (readInlines_prefix b2 o1 hids m)
  | pub x h hp e =>
    have hn := r1.pubs a x h hp
    refine ⟨x, by rw [e]; exact ⟨rfl, rfl, rfl, rfl, rfl, rfl⟩, .inr ⟨h, ?_, ?_⟩⟩
    · rw [e]; simp [Symbol.readLines, hn.1]
    · rw [e]; simp [Symbol.readInlines, hn.2]
  | func x h hp m e =>
    have hids := r1.ids a x h
    refine ⟨x, by rw [e]; exact symNew_header t (InlineOrigins.merge L.inlineOrigins R.inlineOrigins).2 x, .inr ⟨h, ?_, ?_⟩⟩
    · rw [e]; exact readLines_symNew hids ht m
    · rw [e]
      refine readInlines_symNew hids ?_ ht (b5 r3) o2 m
      exact (SMap.keys_pairwise_iff.mp (r1.inlines a x h).1).imp SMap.lt_ne

theorem merged_records {mapping : Str → Option Str} {order : List (Str × Nat) → List (Str × Nat)} (ho : IterOrder order)
    {L R : ObjectInfo} (hL : Accumulated mapping L) (hR : DumpedUnder mapping R)
    (hf : L.files.getMapping.length + R.files.getMapping.length ≤ M32)
    (hor : L.inlineOrigins.length + R.inlineOrigins.length < M32) :
    ∃ M, mergeInto order L R = .ok M ∧ ∀ a s, M.symbols.get? a = some s →
      ∃ x, s.SameHeader x ∧ (L.symbols.get? a = some x ∧ SameRecords M s L x ∨
        R.symbols.get? a = some x ∧ SameRecords M s R x) :=
  complete_records ho hL.spec.1 hL.spec.2 hR.spec.1 hR.spec.2.1 (.inl hR.spec.2.2) hf hor

/-- **C22, C23.** Partial: this holds when the object with fewer symbols is a dump, and fails when it is itself the result of
a merge, see `C22_three_way_witness`.  Merging two dumps, or a dump into an object with more symbols that was itself
obtained this way: each symbol of the result has the header of a symbol of one of the two objects at its address, its line
records are the same and resolve to the same paths, and its INLINE records are the same up to order and resolve to the same
calling files and names; none is lost. -/
theorem C22_C23_merged_records_partial (mapping : Str → Option Str) (order : List (Str × Nat) → List (Str × Nat))
    (ho : IterOrder order) (l r L R : ObjectInfo) (hLR : Larger l r L R) (hd : l.debugId = r.debugId)
    (hL : Accumulated mapping L) (hR : DumpedUnder mapping R)
    (hf : L.files.getMapping.length + R.files.getMapping.length ≤ M32)
    (hor : L.inlineOrigins.length + R.inlineOrigins.length < M32) :
    ∃ M, ObjectInfo.merge order l r = .ok M ∧ ∀ a s, M.symbols.get? a = some s →
      ∃ x, s.SameHeader x ∧ (L.symbols.get? a = some x ∧ SameRecords M s L x ∨
        R.symbols.get? a = some x ∧ SameRecords M s R x) := by
  rw [hLR.merge hd]
  exact merged_records ho hL hR hf hor

/-- **C22.** For every pair of dumps made under one path mapping, in either order and for every hash iteration order: every
line record and every INLINE call site of every symbol of the merged object resolves to the path it resolved to before. -/
theorem C22_merged_paths (mapping : Str → Option Str) (order : List (Str × Nat) → List (Str × Nat)) (ho : IterOrder order)
    (l r : ObjectInfo) (hl : DumpedUnder mapping l) (hr : DumpedUnder mapping r) (hd : l.debugId = r.debugId)
    (hf : l.files.getMapping.length + r.files.getMapping.length ≤ M32)
    (hor : l.inlineOrigins.length + r.inlineOrigins.length < M32) :
    ∃ M, ObjectInfo.merge order l r = .ok M ∧ ∀ a s, M.symbols.get? a = some s →
      ∃ o x, (o = l ∨ o = r) ∧ o.symbols.get? a = some x ∧ s.SameHeader x ∧ SameRecords M s o x := by
  rcases Nat.lt_or_ge r.symbols.length l.symbols.length with h | h
  · obtain ⟨M, m1, m2⟩ := C22_C23_merged_records_partial mapping order ho l r l r (.inl ⟨h, rfl, rfl⟩) hd (.dump _ hl) hr hf hor
    refine ⟨M, m1, fun a s hs => ?_⟩
    obtain ⟨x, h1, ⟨h2, h3⟩ | ⟨h2, h3⟩⟩ := m2 a s hs
    · exact ⟨l, x, .inl rfl, h2, h1, h3⟩
    · exact ⟨r, x, .inr rfl, h2, h1, h3⟩
  · obtain ⟨M, m1, m2⟩ := C22_C23_merged_records_partial mapping order ho l r r l (.inr ⟨h, rfl, rfl⟩) hd (.dump _ hr) hl
      (by omega) (by omega)
    refine ⟨M, m1, fun a s hs => ?_⟩
    obtain ⟨x, h1, ⟨h2, h3⟩ | ⟨h2, h3⟩⟩ := m2 a s hs
    · exact ⟨r, x, .inr rfl, h2, h1, h3⟩
    · exact ⟨l, x, .inl rfl, h2, h1, h3⟩

end DumpSyms
