import Verif.Props.MergeSamples
import Verif.Props.Display
import Verif.Props.Mapping
import Mathlib.Data.List.Perm.Subperm
/-!
# C66: the output does not depend on the order in which hash tables are iterated
-/
namespace DumpSyms
open Collector ObjectInfo Symbols

/-! ## The FILE records -/

/-- The FILE records added by the loop: those of the paths the larger object does not have, in iteration order. -/
theorem mergeLoop_ids {selfRef : List (Str × Nat)} {otherIds : List Str} (entries : List (Str × Nat)) :
    ∀ (remap : List Nat) (ids : List Str) (x : List Nat × List Str),
      SourceMap.mergeLoop selfRef otherIds entries remap ids = .ok x →
      x.2 = ids ++ (entries.filter fun e => (selfRef.lookup e.1).isNone).filterMap fun e => otherIds[e.2]? := by
  induction entries with
  | nil => intro remap ids x h; cases h; simp
  | cons e rest ih =>
    intro remap ids x h
    obtain ⟨p, i⟩ := e
    rw [SourceMap.mergeLoop.eq_def] at h
    simp only at h
    split at h
    · cases hl : selfRef.lookup p with
      | some j =>
        rw [hl] at h
        simp only at h
        rw [ih _ _ _ h]; simp [hl]
      | none =>
        rw [hl] at h
        simp only at h
        cases ho : otherIds[i]? with
        | none => rw [ho] at h; cases h
        | some q =>
          rw [ho] at h
          simp only at h
          rw [ih _ _ _ h]; simp [hl, ho]
    · cases h

theorem files_merge_perm {o1 o2 : List (Str × Nat) → List (Str × Nat)} (h1 : IterOrder o1) (h2 : IterOrder o2)
    {L1 L2 R F1 F2 : SourceMap} {t1 t2 : Option (List Nat)} (hr : L1.refToId = L2.refToId) (hi : L1.idToRef.Perm L2.idToRef)
    (m1 : SourceMap.merge o1 L1 R = .ok (F1, t1)) (m2 : SourceMap.merge o2 L2 R = .ok (F2, t2)) :
    F1.refToId = F2.refToId ∧ F1.idToRef.Perm F2.idToRef := by
  unfold SourceMap.merge at m1 m2
  by_cases hR : R.idToRef = []
  · rw [if_pos hR] at m1 m2
    cases m1; cases m2; exact ⟨hr, hi⟩
  · rw [if_neg hR] at m1 m2
    by_cases hL : L1.idToRef = []
    · have hL2 : L2.idToRef = [] := by
        rw [hL] at hi; exact List.nil_perm.mp hi
      rw [if_pos hL] at m1
      rw [if_pos hL2] at m2
      cases m1; cases m2; exact ⟨rfl, .refl _⟩
    · have hL2 : ¬ L2.idToRef = [] := by
        intro h; rw [h] at hi; exact hL (List.perm_nil.mp hi)
      rw [if_neg hL] at m1
      rw [if_neg hL2] at m2
      rw [← hr] at m2
      cases e1 : SourceMap.mergeLoop L1.refToId R.idToRef (o1 R.refToId) (List.replicate R.idToRef.length 0) L1.idToRef with
      | err m => rw [e1] at m1; cases m1
      | panic => rw [e1] at m1; cases m1
      | ok x1 =>
        cases e2 : SourceMap.mergeLoop L1.refToId R.idToRef (o2 R.refToId) (List.replicate R.idToRef.length 0) L2.idToRef with
        | err m => rw [e2] at m2; cases m2
        | panic => rw [e2] at m2; cases m2
        | ok x2 =>
          rw [e1] at m1
          rw [e2] at m2
          cases m1; cases m2
          refine ⟨rfl, ?_⟩
          simp only
          rw [mergeLoop_ids _ _ _ _ e1, mergeLoop_ids _ _ _ _ e2]
          exact hi.append ((((h1 _).trans (h2 _).symm).filter _).filterMap _)

/-! ## The symbols -/

/-- A merge, with what is said by the records of each symbol that can come out of it. -/
theorem mergeInto_records {mapping : Str → Option Str} {order : List (Str × Nat) → List (Str × Nat)} (ho : IterOrder order)
    {L R : ObjectInfo} (l1 : L.Good) (l2 : L.files.Follows (fun p => (mapping p).getD p)) (hR : DumpedUnder mapping R)
    (hf : L.files.getMapping.length + R.files.getMapping.length ≤ M32)
    (hor : L.inlineOrigins.length + R.inlineOrigins.length < M32) :
    ∃ M t, mergeInto order L R = .ok M ∧ M.Good ∧ M.files.Follows (fun p => (mapping p).getD p) ∧
      L.files.merge order R.files = .ok (M.files, t) ∧
      M.inlineOrigins = (InlineOrigins.merge L.inlineOrigins R.inlineOrigins).1 ∧
      M.stack = mergeStack L.stack R.stack ∧ M.debugId = L.debugId ∧ M.codeId = L.codeId.or R.codeId ∧
      M.fileName = (if R.binType = .stripped then R.fileName else L.fileName) ∧
      M.cpu = L.cpu ∧ M.peName = L.peName ∧ M.platform = L.platform ∧ M.binType = L.binType ∧
      (∀ a, R.symbols.get? a = none → M.symbols.get? a = L.symbols.get? a) ∧
      (∀ a r, R.symbols.get? a = some r → ∃ b : Bool, (b = true ↔ InsideClosest M.symbols a) ∧
        M.symbols.get? a = mergedAt t (InlineOrigins.merge L.inlineOrigins R.inlineOrigins).2 b (L.symbols.get? a) r) ∧
      (∀ a x m, L.symbols.get? a = some x → SameRecords M { x with isMultiple := m } L x) ∧
      (∀ a x, R.symbols.get? a = some x → x.isPublic = true → SameRecords M x R x) ∧
      (∀ a x m, R.symbols.get? a = some x → SameRecords M
        { symNew t (InlineOrigins.merge L.inlineOrigins R.inlineOrigins).2 x with isMultiple := m } R x) := by
  obtain ⟨r1, r2, r3⟩ := hR.spec
  obtain ⟨M, t, m1, m0, m2, m3, m6, m7, m8, m9, m10, m11, m12, m13, m4, m5⟩ := mergeInto_spec ho l1 r1 hf hor
  obtain ⟨F, t', b1, _, b2, _, b3, b6, b4, b5⟩ := SourceMap.merge_spec ho l1.files r1.files hf
  rw [m2] at b1; cases b1
  obtain ⟨o1, _, _, o2⟩ := originsMerge_spec L.inlineOrigins R.inlineOrigins hor
  rw [← m3] at o1 o2
  have ht : ∀ i, i < R.files.getMapping.length → ∃ j, fileTo t i = some j ∧ M.files.getMapping[j]? = R.files.getMapping[i]? := by
    intro i hi
    obtain ⟨j, h1, _⟩ := b3 i hi
    exact ⟨j, h1, b4 _ l2 r2 (.inl r3) i j hi h1⟩
  refine ⟨M, t, m1, m0, b6 _ l2 r2, m2, m3, m6, m7, m8, m9, m10, m11, m12, m13, m4, m5, ?_, ?_, ?_⟩
  · intro a x m h
    have hids := l1.ids a x h
    exact ⟨readLines_prefix b2 hids m, List.Perm.of_eq (readInlines_prefix b2 o1 hids m)⟩
  · intro a x h hp
    have hn := r1.pubs a x h hp
    exact ⟨by simp [Symbol.readLines, hn.1], by simp [Symbol.readInlines, hn.2]⟩
  · intro a x m h
    have hids := r1.ids a x h
    refine ⟨readLines_symNew hids ht m, ?_⟩
    refine readInlines_symNew hids ?_ ht (b5 (.inl r3)) o2 m
    exact (SMap.keys_pairwise_iff.mp (r1.inlines a x h).1).imp SMap.lt_ne

theorem SameRecords.symm {o p : ObjectInfo} {s x : Symbol} (h : SameRecords o s p x) : SameRecords p x o s :=
  ⟨h.1.symm, h.2.symm⟩

theorem SameRecords.trans {o p q : ObjectInfo} {s x y : Symbol} (h : SameRecords o s p x) (h' : SameRecords p x q y) :
    SameRecords o s q y := ⟨h.1.trans h'.1, h.2.trans h'.2⟩

/-- Two symbols that come out of a merge for the same reason. -/
inductive Paired (t1 t2 : Option (List Nat)) (o : List Nat) (l1 l2 : Option Symbol) (r s1 s2 : Symbol) : Prop where
  | left (x y : Symbol) (m : Bool) (h1 : l1 = some x) (h2 : l2 = some y) (e1 : s1 = { x with isMultiple := m })
      (e2 : s2 = { y with isMultiple := m })
  | pub (hp : r.isPublic = true) (e1 : s1 = r) (e2 : s2 = r)
  | func (m : Bool) (e1 : s1 = { symNew t1 o r with isMultiple := m }) (e2 : s2 = { symNew t2 o r with isMultiple := m })

theorem mergedAt_paired (t1 t2 : Option (List Nat)) (o : List Nat) (b : Bool) {l1 l2 : Option Symbol} (r : Symbol)
    (hn : l1 = none ↔ l2 = none)
    (hs : ∀ x y, l1 = some x → l2 = some y → x.SameHeader y ∧ x.isMultiple = y.isMultiple) :
    (mergedAt t1 o b l1 r = none ∧ mergedAt t2 o b l2 r = none) ∨
    ∃ s1 s2, mergedAt t1 o b l1 r = some s1 ∧ mergedAt t2 o b l2 r = some s2 ∧ Paired t1 t2 o l1 l2 r s1 s2 := by
  cases l1 with
  | none =>
    have h2 : l2 = none := hn.mp rfl
    subst h2
    unfold mergedAt
    by_cases hp : r.isPublic = true
    · rw [if_pos hp, if_pos hp]
      cases b with
      | true => exact .inl ⟨rfl, rfl⟩
      | false => exact .inr ⟨r, r, rfl, rfl, .pub hp rfl rfl⟩
    · rw [if_neg hp, if_neg hp]
      exact .inr ⟨_, _, rfl, rfl, .func r.isMultiple rfl rfl⟩
  | some x =>
    cases l2 with
    | none => exact absurd (hn.mpr rfl) (by simp)
    | some y =>
      obtain ⟨⟨n1, n2, n3, n4, n5, n6⟩, n7⟩ := hs x y rfl rfl
      right
      unfold mergedAt
      simp only
      have keep : ∃ s1 s2, some x = some s1 ∧ some y = some s2 ∧ Paired t1 t2 o (some x) (some y) r s1 s2 :=
        ⟨x, y, rfl, rfl, .left x y x.isMultiple rfl rfl rfl (by rw [n7])⟩
      by_cases hp : r.isPublic = true
      · rw [if_pos hp, if_pos hp]
        cases b with
        | true => exact keep
        | false =>
          simp only [Bool.false_eq_true, if_false]
          by_cases h1 : r.isSynthetic = true
          · rw [if_pos h1, if_pos h1]; exact keep
          · rw [if_neg h1, if_neg h1, ← n3, ← n1]
            by_cases h2 : x.isSynthetic = true
            · rw [if_pos h2, if_pos h2]; exact ⟨r, r, rfl, rfl, .pub hp rfl rfl⟩
            · rw [if_neg h2, if_neg h2]
              by_cases h3 : x.name ≠ r.name
              · rw [if_pos h3, if_pos h3]; exact ⟨_, _, rfl, rfl, .left x y true rfl rfl rfl (by rw [← n1, ← n3])⟩
              · rw [if_neg h3, if_neg h3]; exact keep
      · rw [if_neg hp, if_neg hp, ← n2]
        by_cases h2 : x.isPublic = true
        · rw [if_pos h2, if_pos h2]; exact ⟨_, _, rfl, rfl, .func true rfl rfl⟩
        · rw [if_neg h2, if_neg h2]; exact ⟨_, _, rfl, rfl, .left x y true rfl rfl rfl (by rw [n2])⟩

/-- The same symbols, as far as their extents are concerned, below an address. -/
theorem insideClosest_lens {m m' : Symbols} {a : Nat} (hn : ∀ c, c < a → (m.get? c = none ↔ m'.get? c = none))
    (hs : ∀ c s x, c < a → m.get? c = some s → m'.get? c = some x → s.len = x.len) (h : InsideClosest m a) :
    InsideClosest m' a := by
  obtain ⟨b, s, ⟨h1, h2, h3⟩, h4, h5⟩ := h
  cases hx : m'.get? b with
  | none => rw [(hn b h2).mpr hx] at h1; cases h1
  | some x =>
    have hl := hs b s x h2 h1 hx
    refine ⟨b, x, ⟨hx, h2, fun c hc hca => (hn c hca).mp (h3 c hc hca)⟩, ?_, ?_⟩ <;> rw [← hl] <;> assumption

theorem same_keys {m m' : Symbols} (h : m.Sorted) (h' : m'.Sorted) (hn : ∀ a, m.get? a = none ↔ m'.get? a = none) :
    m.length = m'.length := by
  have hk : m.map (·.1) = m'.map (·.1) := by
    have s1 : (m.map (·.1)).Pairwise (· < ·) := by rw [List.pairwise_map]; exact sorted_lt h
    have s2 : (m'.map (·.1)).Pairwise (· < ·) := by rw [List.pairwise_map]; exact sorted_lt h'
    have mem : ∀ {p q : Symbols}, p.Sorted → (∀ a, p.get? a = none ↔ q.get? a = none) → ∀ a, a ∈ p.map (·.1) → a ∈ q.map (·.1) := by
      intro p q hp hq a ha
      obtain ⟨e, he, rfl⟩ := List.mem_map.mp ha
      have := SMap.get?_of_mem hp he
      cases hx : q.get? e.1 with
      | none => rw [(hq _).mpr hx] at this; cases this
      | some y => exact List.mem_map.mpr ⟨_, SMap.mem_of_get? hx, rfl⟩
    have hp : (m.map (·.1)).Perm (m'.map (·.1)) := by
      rw [List.perm_ext_iff_of_nodup (s1.imp (fun h => Nat.ne_of_lt h)) (s2.imp (fun h => Nat.ne_of_lt h))]
      exact fun a => ⟨mem h hn a, mem h' (fun a => (hn a).symm) a⟩
    exact hp.eq_of_pairwise (fun a b _ _ h1 h2 => absurd h1 (Nat.lt_asymm h2)) s1 s2
  simpa using congrArg List.length hk

theorem keys_le {m m' : Symbols} (h : m.Sorted) (hn : ∀ a s, m.get? a = some s → m'.get? a ≠ none) : m.length ≤ m'.length := by
  have s1 : (m.map (·.1)).Nodup :=
    List.Pairwise.imp (fun h => Nat.ne_of_lt h) (by rw [List.pairwise_map]; exact sorted_lt h)
  have hsub : m.map (·.1) ⊆ m'.map (·.1) := by
    intro a ha
    obtain ⟨e, he, rfl⟩ := List.mem_map.mp ha
    cases hx : m'.get? e.1 with
    | none => exact absurd hx (hn _ _ (SMap.get?_of_mem h he))
    | some y => exact List.mem_map.mpr ⟨_, SMap.mem_of_get? hx, rfl⟩
  simpa using (List.subperm_of_subset s1 hsub).length_le

theorem mergedAt_some (t : Option (List Nat)) (o : List Nat) (b : Bool) (l r : Symbol) : mergedAt t o b (some l) r ≠ none := by
  unfold mergedAt
  simp only
  repeat' split
  all_goals simp

/-- One merge into objects that describe the same module. -/
theorem mergeInto_same {mapping : Str → Option Str} {o1 o2 : List (Str × Nat) → List (Str × Nat)} (h1 : IterOrder o1)
    (h2 : IterOrder o2) {L1 L2 R : ObjectInfo} (g1 : L1.Good) (g2 : L2.Good)
    (w1 : L1.files.Follows (fun p => (mapping p).getD p)) (w2 : L2.files.Follows (fun p => (mapping p).getD p))
    (hR : DumpedUnder mapping R) (hs : SameModule L1 L2) (hr : L1.files.refToId = L2.files.refToId)
    (hf : L1.files.getMapping.length + R.files.getMapping.length ≤ M32)
    (hor : L1.inlineOrigins.length + R.inlineOrigins.length < M32) :
    ∃ M1 M2, mergeInto o1 L1 R = .ok M1 ∧ mergeInto o2 L2 R = .ok M2 ∧ M1.Good ∧ M2.Good ∧
      M1.files.Follows (fun p => (mapping p).getD p) ∧ M2.files.Follows (fun p => (mapping p).getD p) ∧
      SameModule M1 M2 ∧ M1.files.refToId = M2.files.refToId ∧
      M1.files.getMapping.length ≤ L1.files.getMapping.length + R.files.getMapping.length ∧
      M1.inlineOrigins.length = L1.inlineOrigins.length + R.inlineOrigins.length ∧
      L1.symbols.length ≤ M1.symbols.length := by
  have hf2 : L2.files.getMapping.length + R.files.getMapping.length ≤ M32 := by rw [← hs.files.length_eq]; exact hf
  have hor2 : L2.inlineOrigins.length + R.inlineOrigins.length < M32 := by rw [← hs.origins]; exact hor
  obtain ⟨M1, t1, a1, a2, a3, a4, a5, a6, a7, a8, a9, a10, a11, a12, a13, a14, a15, a16, a17, a18⟩ :=
    mergeInto_records h1 g1 w1 hR hf hor
  obtain ⟨M2, t2, b1, b2, b3, b4, b5, b6, b7, b8, b9, b10, b11, b12, b13, b14, b15, b16, b17, b18⟩ :=
    mergeInto_records h2 g2 w2 hR hf2 hor2
  obtain ⟨hrefs, hperm⟩ := files_merge_perm h1 h2 hr hs.files a4 b4
  rw [← hs.origins] at b5 b15 b18
  generalize hO : (InlineOrigins.merge L1.inlineOrigins R.inlineOrigins).2 = O at a15 a18 b15 b18
  have key : ∀ n a, a < n → (M1.symbols.get? a = none ↔ M2.symbols.get? a = none) ∧
      ∀ s x, M1.symbols.get? a = some s → M2.symbols.get? a = some x →
        s.SameHeader x ∧ s.isMultiple = x.isMultiple ∧ SameRecords M1 s M2 x := by
    intro n
    induction n with
    | zero => intro a ha; omega
    | succ n ih =>
      intro a ha
      cases hx : R.symbols.get? a with
      | none =>
        rw [a14 a hx, b14 a hx]
        refine ⟨hs.absent a, ?_⟩
        intro s x q1 q2
        obtain ⟨c1, c2, c3⟩ := hs.symbols a s x q1 q2
        exact ⟨c1, c2, ((a16 a s s.isMultiple q1).trans c3).trans (b16 a x x.isMultiple q2).symm⟩
      | some r =>
        obtain ⟨i1, j1, k1⟩ := a15 a r hx
        obtain ⟨i2, j2, k2⟩ := b15 a r hx
        have hi : i1 = i2 := by
          have : InsideClosest M1.symbols a ↔ InsideClosest M2.symbols a := by
            constructor
            · exact insideClosest_lens (fun c hc => (ih c (by omega)).1)
                (fun c s x hc q1 q2 => ((ih c (by omega)).2 s x q1 q2).1.2.2.2.2.1)
            · exact insideClosest_lens (fun c hc => (ih c (by omega)).1.symm)
                (fun c s x hc q1 q2 => ((ih c (by omega)).2 x s q2 q1).1.2.2.2.2.1.symm)
          rw [Bool.eq_iff_iff, j1, j2, this]
        subst hi
        rw [k1, k2]
        rcases mergedAt_paired t1 t2 O i1 r (hs.absent a)
          (fun x y q1 q2 => ⟨(hs.symbols a x y q1 q2).1, (hs.symbols a x y q1 q2).2.1⟩) with ⟨q1, q2⟩ | ⟨s1, s2, q1, q2, q3⟩
        · rw [q1, q2]; exact ⟨by simp, by intro s x h; cases h⟩
        · rw [q1, q2]
          refine ⟨by simp, ?_⟩
          intro s x e1 e2
          cases e1; cases e2
          cases q3 with
          | left u v m z1 z2 y1 y2 =>
            obtain ⟨⟨c1, c2, c3, c4, c5, c6⟩, _, c7⟩ := hs.symbols a u v z1 z2
            refine ⟨by rw [y1, y2]; exact ⟨c1, c2, c3, c4, c5, c6⟩, by rw [y1, y2], ?_⟩
            rw [y1, y2]
            exact ((a16 a u m z1).trans c7).trans (b16 a v m z2).symm
          | pub hp y1 y2 =>
            rw [y1, y2]
            exact ⟨⟨rfl, rfl, rfl, rfl, rfl, rfl⟩, rfl, (a17 a r hx hp).trans (b17 a r hx hp).symm⟩
          | func m y1 y2 =>
            rw [y1, y2]
            exact ⟨⟨rfl, rfl, rfl, rfl, rfl, rfl⟩, rfl, (a18 a r m hx).trans (b18 a r m hx).symm⟩
  obtain ⟨r1, _, _⟩ := hR.spec
  obtain ⟨F, t', f1, _, _, f4, _⟩ := SourceMap.merge_spec h1 g1.files r1.files hf
  rw [a4] at f1; cases f1
  refine ⟨M1, M2, a1, b1, a2, b2, a3, b3, ?_, hrefs, f4, ?_, ?_⟩
  · exact {
      fileName := by rw [a9, b9, hs.fileName]
      cpu := by rw [a10, b10, hs.cpu]
      debugId := by rw [a7, b7, hs.debugId]
      codeId := by rw [a8, b8, hs.codeId]
      peName := by rw [a11, b11, hs.peName]
      platform := by rw [a12, b12, hs.platform]
      binType := by rw [a13, b13, hs.binType]
      stack := by rw [a6, b6, hs.stack]
      files := hperm
      origins := by rw [a5, b5]
      absent := fun a => (key (a + 1) a (by omega)).1
      symbols := fun a => (key (a + 1) a (by omega)).2 }
  · rw [a5]; exact (originsMerge_spec _ _ hor).2.1
  · refine keys_le g1.sorted ?_
    intro a s hsome
    cases hx : R.symbols.get? a with
    | none => rw [a14 a hx, hsome]; simp
    | some r =>
      obtain ⟨b, _, hb⟩ := a15 a r hx
      rw [hb, hsome]; exact mergedAt_some t1 O b s r

theorem SameModule.refl (o : ObjectInfo) : SameModule o o where
  fileName := rfl
  cpu := rfl
  debugId := rfl
  codeId := rfl
  peName := rfl
  platform := rfl
  binType := rfl
  stack := rfl
  files := .refl _
  origins := rfl
  absent := fun _ => .rfl
  symbols := by intro a s x h1 h2; rw [h1] at h2; cases h2; exact ⟨⟨rfl, rfl, rfl, rfl, rfl, rfl⟩, rfl, rfl, .refl _⟩

/-- **C66.** Partial: the text does depend on the iteration order, see `C66_order_witness`; what the text says does not, for
two dumps and (`C66_merge_all_partial`) for a sequence of dumps.  Merging two dumps made under one path mapping, with two
hash iteration orders, gives two objects that describe the same module. -/
theorem C66_same_module_partial (mapping : Str → Option Str) (o1 o2 : List (Str × Nat) → List (Str × Nat))
    (h1 : IterOrder o1) (h2 : IterOrder o2) (l r : ObjectInfo) (hl : DumpedUnder mapping l) (hr : DumpedUnder mapping r)
    (hd : l.debugId = r.debugId) (hf : l.files.getMapping.length + r.files.getMapping.length ≤ M32)
    (hor : l.inlineOrigins.length + r.inlineOrigins.length < M32) :
    ∃ M1 M2, ObjectInfo.merge o1 l r = .ok M1 ∧ ObjectInfo.merge o2 l r = .ok M2 ∧ SameModule M1 M2 := by
  obtain ⟨l1, l2, _⟩ := hl.spec
  obtain ⟨r1, r2, _⟩ := hr.spec
  rcases Nat.lt_or_ge r.symbols.length l.symbols.length with h | h
  · rw [Larger.merge (L := l) (R := r) (.inl ⟨h, rfl, rfl⟩) hd, Larger.merge (L := l) (R := r) (.inl ⟨h, rfl, rfl⟩) hd]
    obtain ⟨M1, M2, a1, a2, _, _, _, _, a3, _⟩ := mergeInto_same h1 h2 l1 l1 l2 l2 hr (.refl l) rfl hf hor
    exact ⟨M1, M2, a1, a2, a3⟩
  · rw [Larger.merge (L := r) (R := l) (.inr ⟨h, rfl, rfl⟩) hd, Larger.merge (L := r) (R := l) (.inr ⟨h, rfl, rfl⟩) hd]
    obtain ⟨M1, M2, a1, a2, _, _, _, _, a3, _⟩ :=
      mergeInto_same h1 h2 r1 r1 r2 r2 hl (.refl r) rfl (by omega) (by omega)
    exact ⟨M1, M2, a1, a2, a3⟩

theorem mergeAll_same {mapping : Str → Option Str} (os : List ObjectInfo) :
    ∀ (os1 os2 : List ((List (Str × Nat) → List (Str × Nat)) × ObjectInfo)) (L1 L2 : ObjectInfo),
      os1.map (·.2) = os → os2.map (·.2) = os → (∀ e ∈ os1, IterOrder e.1) → (∀ e ∈ os2, IterOrder e.1) →
      (∀ o ∈ os, DumpedUnder mapping o ∧ o.debugId = L1.debugId ∧ o.symbols.length < L1.symbols.length) →
      L1.Good → L2.Good → L1.files.Follows (fun p => (mapping p).getD p) → L2.files.Follows (fun p => (mapping p).getD p) →
      SameModule L1 L2 → L1.files.refToId = L2.files.refToId →
      L1.files.getMapping.length + (os.map fun o => o.files.getMapping.length).sum ≤ M32 →
      L1.inlineOrigins.length + (os.map fun o => o.inlineOrigins.length).sum < M32 →
      ∃ M1 M2, mergeAll L1 os1 = .ok M1 ∧ mergeAll L2 os2 = .ok M2 ∧ SameModule M1 M2 := by
  induction os with
  | nil =>
    intro os1 os2 L1 L2 e1 e2 _ _ _ _ _ _ _ hs _ _ _
    rw [List.map_eq_nil_iff] at e1 e2
    subst e1; subst e2
    exact ⟨L1, L2, rfl, rfl, hs⟩
  | cons o os ih =>
    intro os1 os2 L1 L2 e1 e2 h1 h2 ho g1 g2 w1 w2 hs hr hf hor
    obtain ⟨⟨p1, o1⟩, os1', rfl, e0, e1'⟩ := List.map_eq_cons_iff.mp e1
    obtain ⟨⟨p2, o''⟩, os2', rfl, e3, e2'⟩ := List.map_eq_cons_iff.mp e2
    simp only at e0 e3
    subst e0; subst e3
    simp only [List.map_cons, List.sum_cons] at hf hor
    obtain ⟨d1, d2, d3⟩ := ho o'' (by simp)
    obtain ⟨M1, M2, a1, a2, a3, a4, a5, a6, a7, a8, a9, a10, a11⟩ := mergeInto_same (h1 _ (List.mem_cons_self ..))
      (h2 _ (List.mem_cons_self ..)) g1 g2 w1 w2 d1 hs hr (by omega) (by omega)
    have k1 : ObjectInfo.merge p1 L1 o'' = .ok M1 := by
      rw [Larger.merge (L := L1) (R := o'') (.inl ⟨d3, rfl, rfl⟩) d2.symm, a1]
    have k2 : ObjectInfo.merge p2 L2 o'' = .ok M2 := by
      have : L2.debugId = o''.debugId := by rw [← hs.debugId, d2]
      have d3' : o''.symbols.length < L2.symbols.length := by rw [← same_keys g1.sorted g2.sorted hs.absent]; exact d3
      rw [Larger.merge (L := L2) (R := o'') (.inl ⟨d3', rfl, rfl⟩) this, a2]
    have hdeb : M1.debugId = L1.debugId := by
      obtain ⟨M, t, m1, _, _, _, _, m2, _⟩ := mergeInto_spec (h1 _ (List.mem_cons_self ..)) g1 d1.spec.1 (by
        simp only [SourceMap.getMapping] at hf; omega) (by omega)
      rw [a1] at m1; cases m1; exact m2
    simp only [mergeAll, k1, k2, Res.bind_ok]
    refine ih os1' os2' M1 M2 e1' e2' (fun e he => h1 e (by simp [he])) (fun e he => h2 e (by simp [he])) ?_ a3 a4 a5 a6 a7 a8
      (by omega) (by omega)
    intro q hq
    obtain ⟨q1, q2, q3⟩ := ho q (by simp [hq])
    exact ⟨q1, q2.trans hdeb.symm, by omega⟩

/-- **C66, many objects.** Partial in the same way.  Merging any number of dumps into a dump with more symbols, one after the
other, with any two sequences of hash iteration orders, gives two objects that describe the same module. -/
theorem C66_merge_all_partial (mapping : Str → Option Str) (acc : ObjectInfo) (hacc : DumpedUnder mapping acc)
    (os1 os2 : List ((List (Str × Nat) → List (Str × Nat)) × ObjectInfo)) (hsame : os1.map (·.2) = os2.map (·.2))
    (h1 : ∀ e ∈ os1, IterOrder e.1) (h2 : ∀ e ∈ os2, IterOrder e.1)
    (ho : ∀ e ∈ os1, DumpedUnder mapping e.2 ∧ e.2.debugId = acc.debugId ∧ e.2.symbols.length < acc.symbols.length)
    (hf : acc.files.getMapping.length + (os1.map fun e => e.2.files.getMapping.length).sum ≤ M32)
    (hor : acc.inlineOrigins.length + (os1.map fun e => e.2.inlineOrigins.length).sum < M32) :
    ∃ M1 M2, mergeAll acc os1 = .ok M1 ∧ mergeAll acc os2 = .ok M2 ∧ SameModule M1 M2 := by
  obtain ⟨l1, l2, _⟩ := hacc.spec
  refine mergeAll_same (os1.map (·.2)) os1 os2 acc acc rfl hsame.symm h1 h2 ?_ l1 l1 l2 l2 (.refl _) rfl ?_ ?_
  · intro o hmem
    obtain ⟨e, he, rfl⟩ := List.mem_map.mp hmem
    exact ho e he
  · rw [List.map_map]; exact hf
  · rw [List.map_map]; exact hor

/-- A file of a third directory. -/
def sampleFile4 : FileInfo := ⟨(200, 0), [], (320, 3), str% "y.c"⟩

def rpL1 : Func := .mk 0x4000 0x10 (nm (str% "l1")) sampleComp [⟨0x4000, some 16, sampleFile4, 31⟩] []
def rpL2 : Func := .mk 0x4010 0x10 (nm (str% "l2")) sampleComp [⟨0x4010, some 16, sampleFile4, 32⟩] []
def rpL : ObjInput := objOf sid false [rpL1, rpL2] []

theorem rpL_dumped : DumpedUnder sampleEnv.mapping (theObj (dumpOf rpL)) := by
  refine ⟨sampleCEnv, sampleMem, [str% "/b/y.c"], [], .linux, rpL, [some rpL1, some rpL2], true, str% "/lib/f.so", none,
    none, ?_, rfl, rfl⟩
  refine ⟨rfl, ⟨by decide, by decide, sampleSort, ?_⟩, (by intro es h; cases h), (fun h => by cases h), embeddedInside_of_kind (by intro l h; cases h; rfl)⟩
  intro f hf
  have hr : RefOk sampleCEnv.src sampleMem [str% "/b/y.c"] sampleComp sampleFile4 := by rw [refOk_iff]; unfold Faithful; decide
  simp only [List.mem_cons, List.not_mem_nil, or_false, Option.some.injEq] at hf
  rcases hf with rfl | rfl
  · exact .mk _ (by intro l hl; cases List.mem_singleton.mp hl; exact hr) (by intro g hg; cases hg) (by intro g hg; cases hg)
  · exact .mk _ (by intro l hl; cases List.mem_singleton.mp hl; exact hr) (by intro g hg; cases hg) (by intro g hg; cases hg)

/-- **C66 fails for the text.** Two dumps; with the two paths of the smaller one taken from its hash table in one order or
the other, the FILE records are numbered differently and the symbol files differ.  The hash tables of the code are seeded at
random in each process. -/
theorem C66_order_witness :
    ∃ (o1 o2 : List (Str × Nat) → List (Str × Nat)) (l r M1 M2 : ObjectInfo) (text1 text2 : Str),
      IterOrder o1 ∧ IterOrder o2 ∧ DumpedUnder sampleEnv.mapping l ∧ DumpedUnder sampleEnv.mapping r ∧
      ObjectInfo.merge o1 l r = .ok M1 ∧ ObjectInfo.merge o2 l r = .ok M2 ∧
      M1.display none = .ok text1 ∧ M2.display none = .ok text2 ∧ text1 ≠ text2 ∧
      M1.files.getMapping = [str% "/b/y.c", str% "git:x.c", str% "/c/y.c"] ∧
      M2.files.getMapping = [str% "/b/y.c", str% "/c/y.c", str% "git:x.c"] :=
  ⟨List.reverse, id, _, _, theObj (ObjectInfo.merge List.reverse (theObj (dumpOf rpL)) (theObj (dumpOf mA))),
    theObj (ObjectInfo.merge id (theObj (dumpOf rpL)) (theObj (dumpOf mA))), _, _,
    fun l => List.reverse_perm l, fun _ => .refl _, rpL_dumped, mA_dumped, by decide, by decide, rfl, rfl, by decide +kernel,
    by decide, by decide⟩

/-- The hypotheses of `C66_same_module_partial` and `C66_merge_all_partial` hold of these dumps. -/
example : (theObj (dumpOf rpL)).debugId = (theObj (dumpOf mA)).debugId ∧
    (theObj (dumpOf mA)).symbols.length < (theObj (dumpOf rpL)).symbols.length ∧
    (theObj (dumpOf mB)).symbols.length < (theObj (dumpOf rpL)).symbols.length ∧
    (∃ M, mergeAll (theObj (dumpOf rpL)) [(id, theObj (dumpOf mA)), (List.reverse, theObj (dumpOf mB))] = .ok M ∧
      M.symbols.length = 4) :=
  ⟨by decide, by decide, by decide, _, rfl, by decide⟩

/-! ## Path mappings -/

namespace Mapping

theorem actionKind_congr {v v' : List (Str × Str)} (h : ∀ k, v.lookup k = v'.lookup k) (a : Str) :
    actionKind v a = actionKind v' a := by
  unfold actionKind
  rw [h]

theorem scan_congr {v v' : List (Str × Str)} (h : ∀ k, v.lookup k = v'.lookup k) (m : List Nat) (cs : List Nat) :
    ∀ i s, scan v m i cs s = scan v' m i cs s := by
  induction cs with
  | nil => intro i s; rfl
  | cons c cs ih =>
    intro i s
    have : scanStep v m i c s = scanStep v' m i c s := by
      unfold scanStep
      simp only [actionKind_congr h]
    simp only [scan, this, ih]

theorem generator_congr {v v' : List (Str × Str)} (h : ∀ k, v.lookup k = v'.lookup k) (env : MapEnv)
    (o : List (Str × Str) → List (Str × Str)) (re m : Str) (files : List Str) :
    Generator.new { env with order := o } re m v files = Generator.new env re m v' files := by
  unfold Generator.new
  simp only [scan_congr h]

theorem entriesLoop_congr {v v' : List (Str × Str)} (h : ∀ k, v.lookup k = v'.lookup k) (env : MapEnv)
    (o : List (Str × Str) → List (Str × Str)) (es : List Entry) :
    ∀ out nf, entriesLoop { env with order := o } v es out nf = entriesLoop env v' es out nf := by
  induction es with
  | nil => intro out nf; rfl
  | cons e es ih => intro out nf; simp only [entriesLoop, generator_congr h, ih]

theorem pairsLoop_congr (env : MapEnv) (v : List (Str × Str)) (o : List (Str × Str) → List (Str × Str)) (ss : List Str) :
    ∀ ds out, pairsLoop { env with order := o } v ss ds out = pairsLoop env v ss ds out := by
  induction ss with
  | nil => intro ds out; rfl
  | cons s ss ih =>
    intro ds out
    cases ds with
    | nil => rfl
    | cons d ds => simp only [pairsLoop, generator_congr (fun _ => rfl), ih]

end Mapping

open Mapping in
/-- **C66, path mappings.** The path mappings built from a command line and a mapping file do not depend on the order in
which the table of variables is iterated. -/
theorem C66_mapping (env : MapEnv) (o1 o2 : List (Str × Str) → List (Str × Str)) (h1 : ∀ l, (o1 l).Perm l)
    (h2 : ∀ l, (o2 l).Perm l) (vs sources destinations : Option (List Str)) (file : Option Str) :
    Mapping.new { env with order := o1 } vs sources destinations file =
      Mapping.new { env with order := o2 } vs sources destinations file := by
  have base : ∀ o, (∀ l, (o l).Perm l) → Mapping.new { env with order := o } vs sources destinations file =
      Mapping.new { env with order := id } vs sources destinations file := by
    intro o ho
    unfold Mapping.new
    cases hv : getVariables vs with
    | err _ => rfl
    | panic => rfl
    | ok cli =>
      have hn : (cli.map (·.1)).Nodup := by
        cases vs with
        | none => cases hv; exact List.nodup_nil
        | some vs => exact (variablesLoop_ok hv List.nodup_nil).1
      simp only [Res.bind_ok]
      have e1 : getMappingsFromFile { env with order := o } cli file [] =
          getMappingsFromFile { env with order := id } cli file [] := by
        cases file with
        | none => rfl
        | some f =>
          simp only [getMappingsFromFile, MappingsFile.new]
          cases env.read f with
          | err _ => rfl
          | panic => rfl
          | ok data =>
            simp only [Res.bind_ok]
            cases env.json data with
            | none => rfl
            | some m =>
              simp only [Res.bind_ok]
              have hl : ∀ k, ((o cli).foldl (fun acc p => insertVar acc p.1 p.2) m.variables).lookup k =
                  ((id cli).foldl (fun acc p => insertVar acc p.1 p.2) m.variables).lookup k := by
                intro k
                rw [foldl_insertVar (((ho cli).map _).nodup_iff.mpr hn), lookup_perm hn (ho cli), id, foldl_insertVar hn]
              rw [entriesLoop_congr hl { env with order := id } o]
      rw [e1]
      have e2 : ∀ x, getMappings { env with order := o } cli sources destinations x =
          getMappings { env with order := id } cli sources destinations x := by
        intro x
        unfold getMappings
        split
        · rfl
        · split
          · rfl
          · split
            · exact pairsLoop_congr { env with order := id } cli o _ _ _
            · rfl
      simp only [e2]
  rw [base o1 h1, base o2 h2]

/-- Two variables from the command line, one of which hides one of the mapping file. -/
example : (match Mapping.new { Mapping.sampleEnv with order := id } (some [str% "rev=1", str% "x=2"]) none none
    (some (str% "map.json")) with
    | .ok (some gs) => gs.map fun g => (g.files, g.actions.map (·.kind)) | _ => []) =
    [([str% "/foo/a.c"], [.mappingVar (str% "2")]), ([], [.group 1, .mappingVar (str% "1")])] := by decide

end DumpSyms
