import Verif.Proof.Merge
/-!
# Merging the symbols
-/
namespace DumpSyms
open Symbol ObjectInfo Symbols

/-- The symbol at an address after merging, from the larger input's symbol (`l`, if any) and the other input's (`r`);
`inside` tells whether the address is inside the closest preceding merged symbol. -/
def mergedAt (t : Option (List Nat)) (o : List Nat) (inside : Bool) (l : Option Symbol) (r : Symbol) : Option Symbol :=
  if r.isPublic then
    if inside then l
    else match l with
      | none => some r
      | some l =>
        if r.isSynthetic then some l
        else if l.isSynthetic then some r
        else if l.name ≠ r.name then some { l with isMultiple := true }
        else some l
  else match l with
    | none => some (symNew t o r)
    | some l => if l.isPublic then some { symNew t o r with isMultiple := true } else some { l with isMultiple := true }

theorem closest_local {m m' : Symbols} {a b : Nat} {s : Symbol} (h : ∀ c, c < a → m.get? c = m'.get? c)
    (hc : Closest m a b s) : Closest m' a b s := by
  obtain ⟨h1, h2, h3⟩ := hc
  refine ⟨by rw [← h b h2]; exact h1, h2, ?_⟩
  intro c hb hca
  rw [← h c hca]; exact h3 c hb hca

theorem insideClosest_local {m m' : Symbols} {a : Nat} (h : ∀ c, c < a → m.get? c = m'.get? c) :
    InsideClosest m a ↔ InsideClosest m' a := by
  constructor
  · rintro ⟨b, s, hc, hx⟩; exact ⟨b, s, closest_local h hc, hx⟩
  · rintro ⟨b, s, hc, hx⟩; exact ⟨b, s, closest_local (fun c hc => (h c hc).symm) hc, hx⟩

theorem mergePublic_spec {m : Symbols} (hs : m.Sorted) (t : Option (List Nat)) (o : List Nat) (a : Nat) (r : Symbol)
    (hr : r.isPublic = true) :
    (mergePublic m a r).Sorted ∧ ∀ b, (mergePublic m a r).get? b =
      if b = a then mergedAt t o (m.isInsideSymbol a) (m.get? a) r else m.get? b := by
  have ins : ∀ v b, (SMap.insert m a v).get? b = if b = a then some v else m.get? b := by
    intro v b
    rw [SMap.get?_insert _ _ _ hs]
    by_cases h : a = b
    · simp [h]
    · rw [if_neg h, if_neg (fun x => h x.symm)]
  unfold mergePublic mergedAt
  rw [if_pos hr]
  by_cases hi : m.isInsideSymbol a = true
  · rw [if_pos hi, if_pos hi]
    refine ⟨hs, fun b => ?_⟩
    by_cases h : b = a
    · rw [if_pos h, h]
    · rw [if_neg h]
  · rw [if_neg hi, if_neg hi]
    cases hg : m.get? a with
    | none => exact ⟨SMap.insert_sorted hs .., fun b => by simp only; rw [ins]⟩
    | some l =>
      have keep : ∀ b, m.get? b = if b = a then some l else m.get? b := by
        intro b
        by_cases h : b = a
        · rw [if_pos h, h, hg]
        · rw [if_neg h]
      simp only
      by_cases h1 : r.isSynthetic = true
      · simp only [if_pos h1]; exact ⟨hs, keep⟩
      · simp only [if_neg h1]
        by_cases h2 : l.isSynthetic = true
        · simp only [if_pos h2]
          exact ⟨SMap.insert_sorted hs .., ins r⟩
        · simp only [if_neg h2]
          by_cases h3 : l.name = r.name
          · simp only [h3, ne_eq, not_true_eq_false, if_false]; exact ⟨hs, keep⟩
          · simp only [ne_eq, h3, not_false_eq_true, if_true]
            exact ⟨SMap.insert_sorted hs .., ins _⟩

theorem mergeFunc_spec {m : Symbols} (hs : m.Sorted) {t : Option (List Nat)} {o : List Nat} {nf no : Nat}
    (ht : TablesFor t o nf no) (inside : Bool) (a : Nat) {r : Symbol} (hr : r.isPublic = false) (hd : r.IdsDefined nf no) :
    ∃ m', mergeFunc t o m a r = .ok m' ∧ m'.Sorted ∧ ∀ b, m'.get? b =
      if b = a then mergedAt t o inside (m.get? a) r else m.get? b := by
  have ins : ∀ v b, (SMap.insert m a v).get? b = if b = a then some v else m.get? b := by
    intro v b
    rw [SMap.get?_insert _ _ _ hs]
    by_cases h : a = b
    · simp [h]
    · rw [if_neg h, if_neg (fun x => h x.symm)]
  unfold mergeFunc mergedAt
  rw [if_neg (by simp [hr])]
  cases hg : m.get? a with
  | none =>
    simp only [remapSym_spec ht hd, Res.bind_ok]
    exact ⟨_, rfl, SMap.insert_sorted hs .., ins _⟩
  | some l =>
    simp only
    by_cases h1 : l.isPublic = true
    · simp only [if_pos h1, remapSym_spec ht hd, Res.bind_ok]
      exact ⟨_, rfl, SMap.insert_sorted hs .., ins _⟩
    · simp only [if_neg h1]
      exact ⟨_, rfl, SMap.insert_sorted hs .., ins _⟩

theorem mergedAt_keyed {t : Option (List Nat)} {o : List Nat} {inside : Bool} {l : Option Symbol} {r : Symbol} {a : Nat}
    (hl : ∀ s, l = some s → s.rva = a ∧ a < M32 ∧ s.len < M32) (hr : r.rva = a ∧ a < M32 ∧ r.len < M32) {s : Symbol}
    (h : mergedAt t o inside l r = some s) : s.rva = a ∧ a < M32 ∧ s.len < M32 := by
  unfold mergedAt at h
  cases l with
  | none =>
    simp only at h
    split at h
    · split at h <;> cases h
      exact hr
    · cases h; exact hr
  | some l =>
    have hl := hl l rfl
    simp only at h
    split at h
    · repeat' split at h
      all_goals cases h
      all_goals assumption
    · split at h <;> cases h
      · exact hr
      · exact hl

/-- The merged symbols, address by address. -/
theorem mergeSyms_spec {t : Option (List Nat)} {o : List Nat} {nf no : Nat} (ht : TablesFor t o nf no)
    (rest : List (Nat × Symbol)) :
    ∀ m : Symbols, m.Sorted → Keyed m → rest.Pairwise (fun a b => a.1 < b.1) →
      (∀ e ∈ rest, e.2.IdsDefined nf no ∧ e.2.rva = e.1 ∧ e.1 < M32 ∧ e.2.len < M32) →
      ∃ m', mergeSyms t o rest m = .ok m' ∧ m'.Sorted ∧ Keyed m' ∧
        (∀ a, (∀ e ∈ rest, e.1 ≠ a) → m'.get? a = m.get? a) ∧
        (∀ e ∈ rest, ∃ b : Bool, (b = true ↔ InsideClosest m' e.1) ∧ m'.get? e.1 = mergedAt t o b (m.get? e.1) e.2) := by
  induction rest with
  | nil => intro m hs hk _ _; exact ⟨m, rfl, hs, hk, fun _ _ => rfl, by simp⟩
  | cons e rest ih =>
    intro m hs hk hp he
    obtain ⟨a, r⟩ := e
    rw [List.pairwise_cons] at hp
    obtain ⟨hd, hr1, hr2, hr3⟩ := he (a, r) (by simp)
    simp only at hd hr1 hr2 hr3
    -- one step
    have step : ∃ m1, m1.Sorted ∧ (∀ b, m1.get? b =
          if b = a then mergedAt t o (m.isInsideSymbol a) (m.get? a) r else m.get? b) ∧
        mergeSyms t o ((a, r) :: rest) m = mergeSyms t o rest m1 := by
      rw [mergeSyms.eq_def]
      simp only
      by_cases hpub : r.isPublic = true
      · rw [if_pos hpub]
        obtain ⟨s1, s2⟩ := mergePublic_spec hs t o a r hpub
        exact ⟨_, s1, s2, rfl⟩
      · rw [if_neg hpub]
        obtain ⟨m1, s0, s1, s2⟩ := mergeFunc_spec hs ht (m.isInsideSymbol a) a (by simpa using hpub) hd
        rw [s0]
        exact ⟨m1, s1, s2, rfl⟩
    obtain ⟨m1, s1, s2, s3⟩ := step
    have hk1 : Keyed m1 := by
      intro b s hb
      rw [s2 b] at hb
      by_cases hba : b = a
      · rw [if_pos hba] at hb
        subst hba
        exact mergedAt_keyed (fun s h => hk b s h) ⟨hr1, hr2, hr3⟩ hb
      · rw [if_neg hba] at hb; exact hk b s hb
    obtain ⟨m', i1, i2, i3, i4, i5⟩ := ih m1 s1 hk1 hp.2 (fun e he' => he e (by simp [he']))
    refine ⟨m', by rw [s3, i1], i2, i3, ?_, ?_⟩
    · intro b hb
      rw [i4 b (fun e he => hb e (by simp [he])), s2 b, if_neg]
      intro h; exact hb (a, r) (by simp) h.symm
    · intro e hemem
      rcases List.mem_cons.mp hemem with rfl | hrest
      · simp only
        refine ⟨m.isInsideSymbol a, ?_, ?_⟩
        · rw [isInsideSymbol_iff hs hk]
          apply insideClosest_local
          intro c hc
          rw [i4 c (fun e he => by have := hp.1 e he; simp only at this; omega), s2 c, if_neg (by omega)]
        · rw [i4 a (fun e he => by have := hp.1 e he; simp only at this; omega), s2 a, if_pos rfl]
      · obtain ⟨b, b1, b2⟩ := i5 e hrest
        refine ⟨b, b1, ?_⟩
        rw [b2, s2 e.1, if_neg]
        have := hp.1 e hrest
        simp only at this; omega

/-! ## Whole objects -/

/-- What holds of every dumped or merged object. -/
structure ObjectInfo.Good (o : ObjectInfo) : Prop where
  sorted : o.symbols.Sorted
  keyed : Keyed o.symbols
  ids : ∀ a s, o.symbols.get? a = some s → s.IdsDefined o.files.idToRef.length o.inlineOrigins.length
  inlines : ∀ a s, o.symbols.get? a = some s → SMap.Sorted s.source.inlines ∧ ∀ e ∈ s.source.inlines, e.2 ≠ []
  pubs : ∀ a s, o.symbols.get? a = some s → s.isPublic = true → s.NoRecords
  files : o.files.WF

theorem Symbol.IdsDefined.mono {nf no nf' no' : Nat} (h1 : nf ≤ nf') (h2 : no ≤ no') {s : Symbol} (h : s.IdsDefined nf no) :
    s.IdsDefined nf' no' :=
  ⟨fun l hl => Nat.lt_of_lt_of_le (h.1 l hl) h1,
   fun e he => ⟨Nat.lt_of_lt_of_le (h.2 e he).1 h1, Nat.lt_of_lt_of_le (h.2 e he).2 h2⟩⟩

theorem symNew_defined {t : Option (List Nat)} {o : List Nat} {nf no nf' no' : Nat}
    (hf : ∀ i, i < nf → ∃ j, fileTo t i = some j ∧ j < nf') (ho : ∀ i, i < no → ∃ j, o[i]? = some j ∧ j < no') {s : Symbol}
    (h : s.IdsDefined nf no) : (symNew t o s).IdsDefined nf' no' := by
  constructor
  · intro l hl
    obtain ⟨l0, hl0, rfl⟩ := List.mem_map.mp hl
    obtain ⟨j, h1, h2⟩ := hf _ (h.1 l0 hl0)
    simp [fileNew, h1, h2]
  · intro e he
    rcases mem_inlinesNew _ _ _ he with h' | ⟨d, hd, rfl⟩
    · cases h'
    · obtain ⟨j, h1, h2⟩ := hf _ (h.2 d hd).1
      obtain ⟨k, h3, h4⟩ := ho _ (h.2 d hd).2
      simp [siteNew, fileNew, h1, h2, h3, h4]

/-- A symbol of a merged map is, up to the `m` flag, a symbol of the larger input, a PUBLIC of the other, or a renumbered
FUNC of the other. -/
inductive FromInput (t : Option (List Nat)) (o : List Nat) (l : Option Symbol) (r : Option Symbol) (s : Symbol) : Prop where
  | left (x : Symbol) (h : l = some x) (m : Bool) (e : s = { x with isMultiple := m })
  | pub (x : Symbol) (h : r = some x) (hp : x.isPublic = true) (e : s = x)
  | func (x : Symbol) (h : r = some x) (hp : x.isPublic = false) (m : Bool) (e : s = { symNew t o x with isMultiple := m })

theorem mergedAt_from {t : Option (List Nat)} {o : List Nat} {inside : Bool} {l : Option Symbol} {r s : Symbol}
    (h : mergedAt t o inside l r = some s) : FromInput t o l (some r) s := by
  unfold mergedAt at h
  cases l with
  | none =>
    simp only at h
    split at h
    · rename_i hp
      split at h <;> cases h
      exact .pub _ rfl hp rfl
    · rename_i hp
      cases h; exact .func _ rfl (by simpa using hp) r.isMultiple rfl
  | some l =>
    simp only at h
    split at h
    · rename_i hp
      repeat' split at h
      all_goals cases h
      · exact .left _ rfl s.isMultiple rfl
      · exact .left _ rfl s.isMultiple rfl
      · exact .pub _ rfl hp rfl
      · exact .left _ rfl true rfl
      · exact .left _ rfl s.isMultiple rfl
    · rename_i hp
      split at h <;> cases h
      · exact .func _ rfl (by simpa using hp) true rfl
      · exact .left _ rfl true rfl

/-- Everything a merge of two good objects does. -/
theorem mergeInto_spec {order : List (Str × Nat) → List (Str × Nat)} (ho : IterOrder order) {L R : ObjectInfo}
    (hL : L.Good) (hR : R.Good) (hf : L.files.idToRef.length + R.files.idToRef.length ≤ M32)
    (hor : L.inlineOrigins.length + R.inlineOrigins.length < M32) :
    ∃ M t, mergeInto order L R = .ok M ∧ M.Good ∧
      L.files.merge order R.files = .ok (M.files, t) ∧
      M.inlineOrigins = (InlineOrigins.merge L.inlineOrigins R.inlineOrigins).1 ∧
      M.stack = mergeStack L.stack R.stack ∧ M.debugId = L.debugId ∧ M.codeId = L.codeId.or R.codeId ∧
      M.fileName = (if R.binType = .stripped then R.fileName else L.fileName) ∧
      M.cpu = L.cpu ∧ M.peName = L.peName ∧ M.platform = L.platform ∧ M.binType = L.binType ∧
      (∀ a, R.symbols.get? a = none → M.symbols.get? a = L.symbols.get? a) ∧
      (∀ a r, R.symbols.get? a = some r → ∃ b : Bool, (b = true ↔ InsideClosest M.symbols a) ∧
        M.symbols.get? a = mergedAt t (InlineOrigins.merge L.inlineOrigins R.inlineOrigins).2 b (L.symbols.get? a) r) := by
  obtain ⟨F, t, f1, f2, f3, f4, f5, _⟩ := SourceMap.merge_spec ho hL.files hR.files hf
  obtain ⟨o1, o2, o3, o4⟩ := originsMerge_spec L.inlineOrigins R.inlineOrigins hor
  generalize hO : InlineOrigins.merge L.inlineOrigins R.inlineOrigins = O at o1 o2 o3 o4
  obtain ⟨O1, O2⟩ := O
  simp only at o1 o2 o3 o4
  have ht : TablesFor t O2 R.files.idToRef.length R.inlineOrigins.length :=
    ⟨fun i hi => (f5 i hi).imp (fun j h => h.1), fun i hi => (o4 i hi).imp (fun j h => h.1)⟩
  obtain ⟨m', s1, s2, s3, s4, s5⟩ := mergeSyms_spec ht R.symbols L.symbols hL.sorted hL.keyed (sorted_lt hR.sorted) (by
    intro e he
    have hg := SMap.get?_of_mem hR.sorted he
    exact ⟨hR.ids _ _ hg, hR.keyed _ _ hg⟩)
  have hnone : ∀ a, R.symbols.get? a = none → m'.get? a = L.symbols.get? a := by
    intro a ha
    apply s4
    intro e he hea
    have hg := SMap.get?_of_mem hR.sorted he
    rw [hea, ha] at hg; cases hg
  have hsome : ∀ a r, R.symbols.get? a = some r → ∃ b : Bool, (b = true ↔ InsideClosest m' a) ∧
      m'.get? a = mergedAt t O2 b (L.symbols.get? a) r := fun a r ha => s5 (a, r) (SMap.mem_of_get? ha)
  have hfrom : ∀ a s, m'.get? a = some s → FromInput t O2 (L.symbols.get? a) (R.symbols.get? a) s := by
    intro a s hs
    cases hr : R.symbols.get? a with
    | none =>
      rw [hnone a hr] at hs
      exact .left s hs s.isMultiple rfl
    | some r =>
      obtain ⟨b, _, hb⟩ := hsome a r hr
      rw [hb] at hs
      exact mergedAt_from hs
  have hlo : L.inlineOrigins.length ≤ O1.length := by omega
  refine ⟨{ L with
    symbols := m', files := F, inlineOrigins := O1
    stack := mergeStack L.stack R.stack
    codeId := L.codeId.or R.codeId
    fileName := if R.binType = .stripped then R.fileName else L.fileName }, t, ?_, ?_, f1, rfl, rfl, rfl, rfl, rfl, rfl,
    rfl, rfl, rfl, hnone, hsome⟩
  · unfold mergeInto
    rw [f1]
    simp only [Res.bind_ok, hO, s1]
  · refine ⟨s2, s3, ?_, ?_, ?_, f2⟩
    · intro a s hs
      simp only at hs ⊢
      cases hfrom a s hs with
      | left x h m e => rw [e]; exact (hL.ids a x h).mono f3.length_le hlo
      | pub x h hp e =>
        rw [e]
        have hn := hR.pubs a x h hp
        exact ⟨by simp [hn.1], by simp [hn.2]⟩
      | func x h hp m e =>
        rw [e]
        exact symNew_defined f5 (fun i hi => by
          obtain ⟨j, j1, j2, j3⟩ := o4 i hi
          exact ⟨j, j1, by omega⟩) (hR.ids a x h)
    rotate_left
    · intro a s hs hp'
      simp only at hs
      cases hfrom a s hs with
      | left x h m e => rw [e] at hp' ⊢; exact hL.pubs a x h hp'
      | pub x h hp e => rw [e]; exact hR.pubs a x h hp
      | func x h hp m e =>
        rw [e] at hp'
        exact absurd (hp.symm.trans hp') (by simp)
    · intro a s hs
      simp only at hs ⊢
      cases hfrom a s hs with
      | left x h m e => rw [e]; exact hL.inlines a x h
      | pub x h hp e => rw [e]; exact hR.inlines a x h
      | func x h hp m e =>
        rw [e]
        refine ⟨inlinesNew_sorted _ _ (by unfold SMap.Sorted; simp), ?_⟩
        intro d hd
        rcases mem_inlinesNew _ _ _ hd with h' | ⟨d', hd', rfl⟩
        · cases h'
        · exact (hR.inlines a x h).2 d' hd'

end DumpSyms
