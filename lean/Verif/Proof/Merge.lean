import Verif.Spec.Merge
import Verif.Proof.Symbols
import Verif.Proof.CollectAll
/-!
# Merging: tables, symbols
-/
namespace DumpSyms
open Symbol ObjectInfo

/-! ## File tables -/

/-- A file table whose path table only has valid ids, one per path. -/
structure SourceMap.WF (s : SourceMap) : Prop where
  nodup : (s.refToId.map (·.1)).Nodup
  inj : (s.refToId.map (·.2)).Nodup
  below : ∀ e ∈ s.refToId, e.2 < s.idToRef.length

theorem lookup_of_mem {α : Type} {l : List (Str × α)} (hn : (l.map (·.1)).Nodup) {p : Str} {v : α} (h : (p, v) ∈ l) :
    l.lookup p = some v := by
  induction l with
  | nil => cases h
  | cons x xs ih =>
    obtain ⟨k, w⟩ := x
    simp only [List.map_cons, List.nodup_cons] at hn
    rcases List.mem_cons.mp h with he | hx
    · cases he; simp
    · have hpk : p ≠ k := fun e => hn.1 (e ▸ List.mem_map.mpr ⟨(p, v), hx, rfl⟩)
      have hb : (p == k) = false := by simpa using hpk
      rw [List.lookup, hb]; exact ih hn.2 hx

theorem mem_of_lookup {α : Type} {l : List (Str × α)} {p : Str} {v : α} (h : l.lookup p = some v) : (p, v) ∈ l := by
  induction l with
  | nil => cases h
  | cons x xs ih =>
    obtain ⟨k, w⟩ := x
    by_cases hk : p = k
    · subst hk; simp [List.lookup] at h; subst h; simp
    · have hb : (p == k) = false := by simpa using hk
      rw [List.lookup, hb] at h; exact List.mem_cons_of_mem _ (ih h)

/-- What the loop of `SourceMap::merge` computes: the new ids, in terms of the entries processed so far. -/
theorem mergeLoop_spec {selfRef : List (Str × Nat)} {otherIds base : List Str} (entries : List (Str × Nat)) :
    ∀ (remap : List Nat) (ids : List Str), remap.length = otherIds.length → base <+: ids →
      (∀ e ∈ entries, e.2 < otherIds.length) → (entries.map (·.2)).Nodup →
      (∀ e ∈ selfRef, e.2 < base.length) → ids.length + entries.length ≤ M32 →
      ∃ remap' ids', SourceMap.mergeLoop selfRef otherIds entries remap ids = .ok (remap', ids') ∧
        remap'.length = otherIds.length ∧ ids <+: ids' ∧ ids'.length ≤ ids.length + entries.length ∧
        (∀ i, (∀ e ∈ entries, e.2 ≠ i) → remap'[i]? = remap[i]?) ∧
        (∀ p i, (p, i) ∈ entries →
          (∀ j, selfRef.lookup p = some j → remap'[i]? = some j) ∧
          (selfRef.lookup p = none → ∃ j, remap'[i]? = some j ∧ ids.length ≤ j ∧ j < ids'.length ∧
            ids'[j]? = otherIds[i]?)) ∧
        (∀ p i p' i' j, (p, i) ∈ entries → (p', i') ∈ entries → selfRef.lookup p = none → selfRef.lookup p' = none →
          remap'[i]? = some j → remap'[i']? = some j → i = i') := by
  induction entries with
  | nil =>
    intro remap ids h1 _ _ _ _ _
    refine ⟨remap, ids, rfl, h1, List.prefix_refl _, by simp, by simp, by simp, by simp⟩
  | cons e entries ih =>
    intro remap ids h1 h2 h3 h4 h5 h6
    obtain ⟨p, i⟩ := e
    have hi : i < otherIds.length := h3 (p, i) (by simp)
    simp only [List.map_cons, List.nodup_cons] at h4
    have hrest : ∀ e ∈ entries, e.2 < otherIds.length := fun e he => h3 e (by simp [he])
    have hfresh : ∀ e ∈ entries, e.2 ≠ i := by
      intro e he heq
      exact h4.1 (List.mem_map.mpr ⟨e, he, heq⟩)
    simp only [List.length_cons] at h6
    unfold SourceMap.mergeLoop
    rw [if_pos (by omega)]
    cases hl : selfRef.lookup p with
    | some j =>
      simp only
      obtain ⟨r', ids', a1, a2, a3, a4, a5, a6, a7⟩ :=
        ih (remap.set i j) ids (by simpa using h1) h2 hrest h4.2 h5 (by omega)
      have hii : r'[i]? = some j := by
        rw [a5 i hfresh, List.getElem?_set_self (by omega)]
      refine ⟨r', ids', a1, a2, a3, by simp only [List.length_cons]; omega, ?_, ?_, ?_⟩
      · intro x hx
        rw [a5 x (fun e he => hx e (by simp [he])), List.getElem?_set_ne]
        exact hx (p, i) (by simp)
      · intro q x hq
        rcases List.mem_cons.mp hq with hq | hq
        · cases hq
          refine ⟨?_, ?_⟩
          · intro j' hj'; rw [hl] at hj'; cases hj'; exact hii
          · intro hn; rw [hl] at hn; cases hn
        · exact a6 q x hq
      · intro q x q' x' y hq hq' n n' e e'
        rcases List.mem_cons.mp hq with hq | hq
        · cases hq; rw [hl] at n; cases n
        · rcases List.mem_cons.mp hq' with hq' | hq'
          · cases hq'; rw [hl] at n'; cases n'
          · exact a7 q x q' x' y hq hq' n n' e e'
    | none =>
      simp only
      have hoi : otherIds[i]? = some otherIds[i] := List.getElem?_eq_getElem hi
      rw [hoi]
      simp only
      have hu : u32 ids.length = ids.length := u32_of_lt (by omega)
      obtain ⟨r', ids', a1, a2, a3, a4, a5, a6, a7⟩ :=
        ih (remap.set i (u32 ids.length)) (ids ++ [otherIds[i]]) (by simpa using h1)
          (h2.trans (List.prefix_append ..)) hrest h4.2 h5 (by simp; omega)
      have hii : r'[i]? = some ids.length := by
        rw [a5 i hfresh, List.getElem?_set_self (by omega), hu]
      have hlt : ids.length < ids'.length := by
        have := a3.length_le; simp at this; omega
      have hid : ids'[ids.length]? = otherIds[i]? := by
        rw [hoi]
        obtain ⟨t, rfl⟩ := a3
        simp
      have hpre : ids <+: ids' := (List.prefix_append ..).trans a3
      refine ⟨r', ids', a1, a2, hpre, by simp only [List.length_append, List.length_cons, List.length_nil] at a4 ⊢; omega, ?_, ?_, ?_⟩
      · intro x hx
        rw [a5 x (fun e he => hx e (by simp [he])), List.getElem?_set_ne]
        exact hx (p, i) (by simp)
      · intro q x hq
        rcases List.mem_cons.mp hq with hq | hq
        · cases hq
          refine ⟨?_, ?_⟩
          · intro j' hj'; rw [hl] at hj'; cases hj'
          · intro _; exact ⟨ids.length, hii, Nat.le_refl _, hlt, hid⟩
        · refine ⟨(a6 q x hq).1, ?_⟩
          intro hn
          obtain ⟨j, b1, b2, b3, b4⟩ := (a6 q x hq).2 hn
          exact ⟨j, b1, by simp at b2; omega, b3, b4⟩
      · intro q x q' x' y hq hq' n n' e e'
        rcases List.mem_cons.mp hq with hq | hq
        · rcases List.mem_cons.mp hq' with hq' | hq'
          · cases hq; cases hq'; rfl
          · cases hq
            rw [hii] at e; cases e
            obtain ⟨j, b1, b2, _⟩ := (a6 q' x' hq').2 n'
            rw [e'] at b1; cases b1
            simp at b2
            omega
        · rcases List.mem_cons.mp hq' with hq' | hq'
          · cases hq'
            rw [hii] at e'; cases e'
            obtain ⟨j, b1, b2, _⟩ := (a6 q x hq).2 n
            rw [e] at b1; cases b1
            simp at b2
            omega
          · exact a7 q x q' x' y hq hq' n n' e e'

/-- The new id of file `i`, under a table (`none`: ids are unchanged). -/
def fileTo (t : Option (List Nat)) (i : Nat) : Option Nat :=
  match t with
  | none => some i
  | some t => t[i]?

/-- Every path of the table has the FILE record the mapping `mp` says. -/
def SourceMap.Follows (mp : Str → Str) (s : SourceMap) : Prop := ∀ e ∈ s.refToId, s.idToRef[e.2]? = some (mp e.1)

/-- Every FILE record belongs to a path of the table. -/
def SourceMap.Complete (s : SourceMap) : Prop := ∀ i, i < s.idToRef.length → ∃ p, (p, i) ∈ s.refToId

theorem SourceMap.WF.refs_le {s : SourceMap} (h : s.WF) : s.refToId.length ≤ s.idToRef.length := by
  have := List.Nodup.length_le_of_subset h.inj (l₂ := List.range s.idToRef.length) (by
    intro x hx
    obtain ⟨e, he, rfl⟩ := List.mem_map.mp hx
    simpa using h.below e he)
  simpa using this

theorem nodup_snd_inj {l : List (Str × Nat)} (h : (l.map (·.2)).Nodup) {p q : Str} {i : Nat} (hp : (p, i) ∈ l)
    (hq : (q, i) ∈ l) : p = q := by
  induction l with
  | nil => cases hp
  | cons x xs ih =>
    simp only [List.map_cons, List.nodup_cons] at h
    rcases List.mem_cons.mp hp with e | e <;> rcases List.mem_cons.mp hq with e' | e'
    · rw [← e'] at e; cases e; rfl
    · exact absurd (List.mem_map.mpr ⟨_, e', by rw [← e]⟩) h.1
    · exact absurd (List.mem_map.mpr ⟨_, e, by rw [← e']⟩) h.1
    · exact ih h.2 e e'

theorem SourceMap.merge_spec {order : List (Str × Nat) → List (Str × Nat)} (ho : IterOrder order) {L R : SourceMap}
    (hL : L.WF) (hR : R.WF) (hlen : L.idToRef.length + R.idToRef.length ≤ M32) :
    ∃ F t, SourceMap.merge order L R = .ok (F, t) ∧ F.WF ∧ L.idToRef <+: F.idToRef ∧
      F.idToRef.length ≤ L.idToRef.length + R.idToRef.length ∧
      (∀ i, i < R.idToRef.length → ∃ j, fileTo t i = some j ∧ j < F.idToRef.length) ∧
      (∀ mp, L.Follows mp → R.Follows mp → F.Follows mp) ∧
      (∀ mp, L.Follows mp → R.Follows mp → R.Complete ∨ L.idToRef = [] →
        ∀ i j, i < R.idToRef.length → fileTo t i = some j → F.idToRef[j]? = R.idToRef[i]?) ∧
      (R.Complete ∨ L.idToRef = [] → ∀ i i' j, i < R.idToRef.length → i' < R.idToRef.length → fileTo t i = some j →
        fileTo t i' = some j → i = i') := by
  unfold SourceMap.merge
  by_cases h1 : R.idToRef = []
  · rw [if_pos h1]
    refine ⟨L, none, rfl, hL, List.prefix_refl _, by omega, ?_, fun _ h _ => h, ?_, ?_⟩ <;> simp [h1]
  · rw [if_neg h1]
    by_cases h2 : L.idToRef = []
    · rw [if_pos h2]
      refine ⟨R, none, rfl, hR, by simp [h2], by omega, ?_, fun _ _ h => h, ?_, ?_⟩
      · intro i hi; exact ⟨i, rfl, hi⟩
      · intro mp _ _ _ i j _ h; cases h; rfl
      · intro _ i i' j _ _ h h'; cases h; cases h'; rfl
    · rw [if_neg h2]
      have hperm := ho R.refToId
      have hle := hR.refs_le
      have hlen' := hperm.length_eq
      obtain ⟨t, ids, a1, a2, a3, a4, a5, a6, a7⟩ :=
        mergeLoop_spec (selfRef := L.refToId) (otherIds := R.idToRef) (base := L.idToRef) (order R.refToId)
          (List.replicate R.idToRef.length 0) L.idToRef (by simp) (List.prefix_refl _)
          (fun e he => hR.below e (hperm.mem_iff.mp he)) ((hperm.map _).nodup_iff.mpr hR.inj) hL.below (by omega)
      rw [a1]
      simp only [Res.bind_ok]
      have hmem : ∀ e, e ∈ order R.refToId ↔ e ∈ R.refToId := fun e => hperm.mem_iff
      have hLpos : 0 < L.idToRef.length := List.length_pos_iff.mpr h2
      have hfol : ∀ mp, L.Follows mp → SourceMap.Follows mp { L with idToRef := ids } := by
        intro mp hm e he
        have := hm e he
        obtain ⟨r, rfl⟩ := a3
        simp only
        rw [List.getElem?_append_left (hL.below e he)]
        exact this
      refine ⟨_, _, rfl, ⟨hL.nodup, hL.inj, fun e he => Nat.lt_of_lt_of_le (hL.below e he) a3.length_le⟩, a3, by simp only; omega,
        ?_, fun mp h _ => hfol mp h, ?_, ?_⟩
      · intro i hi
        simp only [fileTo]
        by_cases hc : ∃ p, (p, i) ∈ order R.refToId
        · obtain ⟨p, hp⟩ := hc
          obtain ⟨b1, b2⟩ := a6 p i hp
          cases hl : L.refToId.lookup p with
          | some j =>
            exact ⟨j, b1 j hl, Nat.lt_of_lt_of_le (hL.below _ (mem_of_lookup hl)) a3.length_le⟩
          | none => obtain ⟨j, c1, _, c2, _⟩ := b2 hl; exact ⟨j, c1, c2⟩
        · rw [a5 i (by
            intro e he heq
            exact hc ⟨e.1, by rw [← heq]; exact he⟩)]
          exact ⟨0, by simp [hi], Nat.lt_of_lt_of_le hLpos a3.length_le⟩
      · intro mp hm hm' hcomp i j hi hj
        simp only [fileTo] at hj
        obtain ⟨p, hp⟩ := hcomp.resolve_right h2 i hi
        have hri := hm' _ hp
        simp only at hri
        obtain ⟨b1, b2⟩ := a6 p i ((hmem _).mpr hp)
        cases hl : L.refToId.lookup p with
        | some k =>
          rw [b1 k hl] at hj; cases hj
          rw [hri]
          exact hfol mp hm _ (mem_of_lookup hl)
        | none =>
          obtain ⟨k, c1, _, _, c2⟩ := b2 hl
          rw [c1] at hj; cases hj
          exact c2
      · intro hcomp i i' j hi hi' hj hj'
        simp only [fileTo] at hj hj'
        obtain ⟨p, hp⟩ := hcomp.resolve_right h2 i hi
        obtain ⟨q, hq⟩ := hcomp.resolve_right h2 i' hi'
        obtain ⟨b1, b2⟩ := a6 p i ((hmem _).mpr hp)
        obtain ⟨d1, d2⟩ := a6 q i' ((hmem _).mpr hq)
        cases hl : L.refToId.lookup p with
        | some k =>
          rw [b1 k hl] at hj; cases hj
          cases hl' : L.refToId.lookup q with
          | some k' =>
            rw [d1 k' hl'] at hj'; cases hj'
            have := nodup_snd_inj hL.inj (mem_of_lookup hl) (mem_of_lookup hl')
            subst this
            have e1 := lookup_of_mem hR.nodup hp
            have e2 := lookup_of_mem hR.nodup hq
            rw [e1] at e2; cases e2; rfl
          | none =>
            obtain ⟨k', c1, c2, _⟩ := d2 hl'
            rw [c1] at hj'; cases hj'
            have := hL.below _ (mem_of_lookup hl)
            simp only at this; omega
        | none =>
          cases hl' : L.refToId.lookup q with
          | some k' =>
            rw [d1 k' hl'] at hj'; cases hj'
            obtain ⟨k, c1, c2, _⟩ := b2 hl
            rw [c1] at hj; cases hj
            have := hL.below _ (mem_of_lookup hl')
            simp only at this; omega
          | none => exact a7 p i q i' j ((hmem _).mpr hp) ((hmem _).mpr hq) hl hl' hj hj'

/-! ## Origin tables -/

theorem originsMerge_spec (L R : List Str) (hlen : L.length + R.length < M32) :
    L <+: (InlineOrigins.merge L R).1 ∧ (InlineOrigins.merge L R).1.length = L.length + R.length ∧
    (InlineOrigins.merge L R).2.length = R.length ∧
    ∀ i, i < R.length → ∃ j, (InlineOrigins.merge L R).2[i]? = some j ∧ j = L.length + i ∧
      (InlineOrigins.merge L R).1[j]? = R[i]? := by
  unfold InlineOrigins.merge
  by_cases h1 : R = []
  · rw [if_pos h1]; simp [h1]
  · rw [if_neg h1]
    by_cases h2 : L = []
    · rw [if_pos h2]
      rw [u32_of_lt (show R.length < M32 by omega)]
      refine ⟨by simp [h2], by simp [h2], by simp, ?_⟩
      intro i hi
      exact ⟨i, by simp [hi], by simp [h2], rfl⟩
    · rw [if_neg h2]
      have hRpos : 0 < R.length := List.length_pos_iff.mpr h1
      simp only
      rw [u32_of_lt (show R.length < M32 by omega), u32_of_lt (show L.length < M32 by omega), wadd_of_lt hlen, Nat.add_sub_cancel_left]
      refine ⟨List.prefix_append .., by simp, by simp, ?_⟩
      intro i hi
      exact ⟨L.length + i, by simp [hi], rfl, by rw [List.getElem?_append_right (by omega)]; congr 1; omega⟩

/-! ## Renumbering a symbol -/

/-- The new file id (0 if there is none). -/
def fileNew (t : Option (List Nat)) (i : Nat) : Nat := (fileTo t i).getD 0

/-- A renumbered call site. -/
def siteNew (t : Option (List Nat)) (o : List Nat) (s : InlineSite) : InlineSite :=
  { s with callFile := fileNew t s.callFile, originId := o[s.originId]?.getD 0 }

/-- The tables have an entry for every id below the bounds. -/
structure TablesFor (t : Option (List Nat)) (o : List Nat) (nf no : Nat) : Prop where
  file : ∀ i, i < nf → ∃ j, fileTo t i = some j
  origin : ∀ i, i < no → ∃ j, o[i]? = some j

theorem remapLines_spec {t : Option (List Nat)} {s : Symbol} (h : ∀ l ∈ s.source.lines, ∃ j, fileTo t l.fileId = some j) :
    s.remapLines t = .ok { s with source := { s.source with
      lines := s.source.lines.map fun l => { l with fileId := fileNew t l.fileId } } } := by
  unfold Symbol.remapLines
  cases t with
  | none =>
    have : (s.source.lines.map fun l => { l with fileId := fileNew none l.fileId }) = s.source.lines := by
      rw [List.map_congr_left (g := id) (by intro l _; rfl)]; simp
    rw [this]
  | some t =>
    have key : ∀ ls : List Line, (∀ l ∈ ls, ∃ j, fileTo (some t) l.fileId = some j) →
        remapLineList t ls = .ok (ls.map fun l => { l with fileId := fileNew (some t) l.fileId }) := by
      intro ls
      induction ls with
      | nil => intro _; rfl
      | cons l ls ih =>
        intro h
        obtain ⟨j, hj⟩ := h l (by simp)
        simp only [fileTo] at hj
        unfold remapLineList Symbol.index
        rw [hj]
        simp only [Res.bind_ok]
        rw [ih (fun l hl => h l (by simp [hl]))]
        simp [fileNew, fileTo, hj]
    simp only
    rw [key _ h]
    rfl

theorem remapSite_spec {t : Option (List Nat)} {o : List Nat} {s : InlineSite} (h1 : ∃ j, fileTo t s.callFile = some j)
    (h2 : ∃ j, o[s.originId]? = some j) : remapSite t o s = .ok (siteNew t o s) := by
  obtain ⟨j, hj⟩ := h1
  obtain ⟨k, hk⟩ := h2
  unfold remapSite siteNew Symbol.index
  cases t with
  | none => simp [hk, fileNew, fileTo]
  | some t =>
    simp only [fileTo] at hj
    simp [hk, hj, fileNew, fileTo]

/-- The renumbered inline map. -/
def inlinesNew (t : Option (List Nat)) (o : List Nat) (es : List (InlineSite × List IRange))
    (acc : SMap InlineSite (List IRange)) : SMap InlineSite (List IRange) :=
  es.foldl (fun acc e => acc.insert (siteNew t o e.1) e.2) acc

theorem remapInlineList_spec {t : Option (List Nat)} {o : List Nat} (es : List (InlineSite × List IRange)) :
    ∀ acc, (∀ e ∈ es, (∃ j, fileTo t e.1.callFile = some j) ∧ ∃ j, o[e.1.originId]? = some j) →
      remapInlineList t o es acc = .ok (inlinesNew t o es acc) := by
  induction es with
  | nil => intro acc _; rfl
  | cons e es ih =>
    intro acc h
    obtain ⟨site, rs⟩ := e
    obtain ⟨h1, h2⟩ := h (site, rs) (by simp)
    unfold remapInlineList
    rw [remapSite_spec h1 h2]
    simp only [Res.bind_ok]
    rw [ih _ (fun e he => h e (by simp [he]))]
    rfl

/-- A renumbered symbol. -/
def symNew (t : Option (List Nat)) (o : List Nat) (s : Symbol) : Symbol :=
  { s with source := { s.source with
      lines := s.source.lines.map fun l => { l with fileId := fileNew t l.fileId }
      inlines := inlinesNew t o s.source.inlines [] } }

theorem remapSym_spec {t : Option (List Nat)} {o : List Nat} {nf no : Nat} (ht : TablesFor t o nf no) {s : Symbol}
    (h : s.IdsDefined nf no) : remapSym t o s = .ok (symNew t o s) := by
  unfold remapSym
  rw [remapLines_spec (fun l hl => ht.file _ (h.1 l hl))]
  simp only [Res.bind_ok]
  unfold Symbol.remapInlines
  simp only
  rw [remapInlineList_spec _ _ (fun e he => ⟨ht.file _ (h.2 e he).1, ht.origin _ (h.2 e he).2⟩)]
  rfl

theorem inlinesNew_sorted {t : Option (List Nat)} {o : List Nat} (es : List (InlineSite × List IRange)) :
    ∀ acc : SMap InlineSite (List IRange), acc.Sorted → (inlinesNew t o es acc).Sorted := by
  induction es with
  | nil => intro acc h; exact h
  | cons e es ih => intro acc h; exact ih _ (SMap.insert_sorted h ..)

theorem mem_inlinesNew {t : Option (List Nat)} {o : List Nat} (es : List (InlineSite × List IRange)) :
    ∀ (acc : SMap InlineSite (List IRange)) e, e ∈ inlinesNew t o es acc →
      e ∈ acc ∨ ∃ d ∈ es, e = (siteNew t o d.1, d.2) := by
  induction es with
  | nil => intro acc e h; exact .inl h
  | cons d es ih =>
    intro acc e h
    rcases ih _ e h with h | ⟨d', hd', h⟩
    · rcases SMap.mem_insert h with h | h
      · exact .inr ⟨d, by simp, h⟩
      · exact .inl h
    · exact .inr ⟨d', by simp [hd'], h⟩

/-- When different sites stay different, renumbering loses nothing. -/
theorem inlinesNew_perm {t : Option (List Nat)} {o : List Nat} (es : List (InlineSite × List IRange)) :
    ∀ acc : SMap InlineSite (List IRange), acc.Sorted → (es.map fun e => siteNew t o e.1).Nodup →
      (∀ e ∈ es, ∀ d ∈ acc, d.1 ≠ siteNew t o e.1) →
      (inlinesNew t o es acc).Perm (es.map (fun e => (siteNew t o e.1, e.2)) ++ acc) := by
  have ins : ∀ (acc : SMap InlineSite (List IRange)) k v, (∀ d ∈ acc, d.1 ≠ k) → (acc.insert k v).Perm ((k, v) :: acc) := by
    intro acc k v
    induction acc with
    | nil => intro _; exact .refl _
    | cons x xs ih =>
      intro h
      obtain ⟨k', v'⟩ := x
      unfold SMap.insert
      rw [if_neg (fun e => h (k', v') (by simp) e.symm)]
      split
      · exact .refl _
      · exact ((ih (fun d hd => h d (by simp [hd]))).cons _).trans (List.Perm.swap ..)
  induction es with
  | nil => intro acc _ _ _; exact .refl _
  | cons e es ih =>
    intro acc hs hn hd
    simp only [List.map_cons, List.nodup_cons] at hn
    have h1 := ins acc (siteNew t o e.1) e.2 (fun d hd' => hd e (by simp) d hd')
    have h2 := ih (acc.insert (siteNew t o e.1) e.2) (SMap.insert_sorted hs ..) hn.2 (by
      intro e' he' d hd'
      rcases SMap.mem_insert hd' with rfl | hd'
      · intro heq
        exact hn.1 (List.mem_map.mpr ⟨e', he', heq.symm⟩)
      · exact hd e' (by simp [he']) d hd')
    refine h2.trans ?_
    simp only [List.map_cons, List.cons_append]
    exact (List.Perm.append_left _ h1).trans List.perm_middle

end DumpSyms
