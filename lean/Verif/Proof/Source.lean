import Verif.Model.Source
import Verif.Spec.Source
import Verif.Base.AddNew
/-!
# Invariants of the source file table
-/
namespace DumpSyms
open SourceFiles

/-- The path a cache key stands for. -/
def keyPath (env : SrcEnv) (mem : Mem) (k : CacheKey) : Str :=
  getPath env ⟨k.1, mem.bytes k.1⟩ ⟨k.2.1, mem.str k.2.1, k.2.2, mem.str k.2.2⟩

/-- The mapped form of a path. -/
def mapped (env : SrcEnv) (p : Str) : Str := (env.mapping p).getD p

theorem keyPath_of_faithful {env : SrcEnv} {mem : Mem} {comp : ByteSlice} {file : FileInfo}
    (h : Faithful mem comp file) : keyPath env mem (cacheKey comp file) = getPath env comp file := by
  obtain ⟨h1, h2, h3⟩ := h
  cases comp; cases file
  simp only at h1 h2 h3
  subst h1 h2 h3
  rfl

/-- The id of a path when mapping it does not panic. -/
def idOfPath (env : SrcEnv) (s : SourceFiles) (path : Str) : Nat × SourceFiles :=
  match s.refToId.lookup path with
  | some id => (id, s)
  | none =>
    (u32 s.fakeIdToRef.length, { s with
      refToId := (path, u32 s.fakeIdToRef.length) :: s.refToId
      fakeIdToRef := s.fakeIdToRef ++ [(none, mapped env path)] })

/-- The id of a reference when mapping its path does not panic. -/
def idOfRef (env : SrcEnv) (s : SourceFiles) (compDir : ByteSlice) (file : FileInfo) : Nat × SourceFiles :=
  match s.cache.lookup (cacheKey compDir file) with
  | some id => (id, s)
  | none =>
    ((idOfPath env s (getPath env compDir file)).1, { (idOfPath env s (getPath env compDir file)).2 with
      cache := (cacheKey compDir file, (idOfPath env s (getPath env compDir file)).1) :: s.cache })

theorem getIdOfPath_eq {env : SrcEnv} {p : Str} (h : env.mapPanics p = false) (s : SourceFiles) :
    getIdOfPath env s p = .ok (idOfPath env s p) := by
  unfold getIdOfPath idOfPath mapped
  cases s.refToId.lookup p <;> simp [h]

theorem getId_eq {env : SrcEnv} {c : ByteSlice} {f : FileInfo} (h : env.mapPanics (getPath env c f) = false)
    (s : SourceFiles) : getId env s c f = .ok (idOfRef env s c f) := by
  unfold getId idOfRef
  cases s.cache.lookup (cacheKey c f) with
  | some i => rfl
  | none =>
    simp only
    rw [getIdOfPath_eq h]
    have : (idOfPath env s (getPath env c f)).2.cache = s.cache := by
      unfold idOfPath
      cases s.refToId.lookup (getPath env c f) <;> rfl
    simp only [Res.bind_ok, this]

/-- The state after the distinct paths `ps` were seen and the positions `ts` of `ps` got a FILE record. -/
structure SrcInv (env : SrcEnv) (mem : Mem) (s : SourceFiles) (ps : List Str) (ts : List Nat) : Prop where
  nodup : ps.Nodup
  nodupT : ts.Nodup
  bound : ∀ t ∈ ts, t < ps.length
  lookup : ∀ p, s.refToId.lookup p = if p ∈ ps then some (ps.idxOf p) else none
  keys : s.refToId.map (·.1) = ps.reverse
  fake : ∀ i, s.fakeIdToRef[i]? =
    ps[i]?.map (fun p => (if i ∈ ts then some (ts.idxOf i) else none, mapped env p))
  ids : s.idToRef = ts.map (fun t => mapped env (ps[t]?.getD []))
  cache : ∀ k id, s.cache.lookup k = some id → keyPath env mem k ∈ ps ∧ id = ps.idxOf (keyPath env mem k)

theorem srcInv_new (env : SrcEnv) (mem : Mem) : SrcInv env mem SourceFiles.new [] [] where
  nodup := by simp
  nodupT := by simp
  bound := by simp
  lookup := by intro p; rfl
  keys := rfl
  fake := by intro i; simp [SourceFiles.new]
  ids := rfl
  cache := by intro k id h; simp [SourceFiles.new] at h

theorem SrcInv.fake_length {env : SrcEnv} {mem : Mem} {s : SourceFiles} {ps : List Str} {ts : List Nat}
    (h : SrcInv env mem s ps ts) : s.fakeIdToRef.length = ps.length := by
  have h1 := h.fake s.fakeIdToRef.length
  have h2 := h.fake ps.length
  simp only [List.getElem?_eq_none (Nat.le_refl _), Option.map_none] at h1 h2
  have a := List.getElem?_eq_none_iff.mp h2
  have b := Option.map_eq_none_iff.mp h1.symm
  have b := List.getElem?_eq_none_iff.mp b
  omega

theorem idOfPath_spec {env : SrcEnv} {mem : Mem} {s : SourceFiles} {ps : List Str} {ts : List Nat}
    (h : SrcInv env mem s ps ts) (p : Str) (hlen : p ∈ ps ∨ ps.length < M32) :
    (idOfPath env s p).1 = (addNew ps p).idxOf p ∧ SrcInv env mem (idOfPath env s p).2 (addNew ps p) ts ∧
    (idOfPath env s p).2.cache = s.cache := by
  unfold idOfPath
  rw [h.lookup p]
  by_cases hp : p ∈ ps
  · simp only [if_pos hp]
    rw [show addNew ps p = ps by unfold addNew; rw [if_pos hp]]
    exact ⟨rfl, h, trivial⟩
  · simp only [if_neg hp]
    have hl : u32 s.fakeIdToRef.length = ps.length := by
      rw [h.fake_length]; exact u32_of_lt (hlen.resolve_left hp)
    rw [hl]
    refine ⟨(idxOf_addNew_new hp).symm, ?_, trivial⟩
    have hadd : addNew ps p = ps ++ [p] := by unfold addNew; rw [if_neg hp]
    constructor
    · exact addNew_nodup h.nodup p
    · exact h.nodupT
    · intro t ht
      have := h.bound t ht
      rw [hadd]; simp; omega
    · intro q
      simp only [List.lookup_cons]
      by_cases hq : q = p
      · subst hq
        simp [mem_addNew_self, idxOf_addNew_new hp]
      · have hb : (q == p) = false := by simpa using hq
        rw [hb, h.lookup q]
        by_cases hqs : q ∈ ps
        · have : q ∈ addNew ps p := mem_addNew.mpr (.inl hqs)
          simp [hqs, this, idxOf_of_prefix (addNew_prefix ps p) hqs]
        · have : q ∉ addNew ps p := by rw [mem_addNew]; simp [hqs, hq]
          simp [hqs, this]
    · rw [hadd]; simp [h.keys]
    · intro i
      rw [hadd]
      rw [List.getElem?_append, List.getElem?_append, h.fake_length]
      by_cases hi : i < ps.length
      · simp only [if_pos hi]; exact h.fake i
      · simp only [if_neg hi]
        by_cases hi' : i = ps.length
        · subst hi'
          have : ps.length ∉ ts := fun hc => absurd (h.bound _ hc) (by omega)
          simp [this, mapped]
        · have : i - ps.length ≠ 0 := by omega
          obtain ⟨k, hk⟩ := Nat.exists_eq_succ_of_ne_zero this
          simp [hk]
    · rw [h.ids]
      apply List.map_congr_left
      intro t ht
      have := h.bound t ht
      rw [hadd, List.getElem?_append_left this]
    · intro k id hk
      obtain ⟨h1, h2⟩ := h.cache k id hk
      refine ⟨mem_addNew.mpr (.inl h1), ?_⟩
      rw [idxOf_of_prefix (addNew_prefix ps p) h1]; exact h2

theorem idOfRef_spec {env : SrcEnv} {mem : Mem} {s : SourceFiles} {ps : List Str} {ts : List Nat}
    (h : SrcInv env mem s ps ts) {comp : ByteSlice} {file : FileInfo} (hf : Faithful mem comp file)
    (hlen : getPath env comp file ∈ ps ∨ ps.length < M32) :
    (idOfRef env s comp file).1 = (addNew ps (getPath env comp file)).idxOf (getPath env comp file) ∧
    SrcInv env mem (idOfRef env s comp file).2 (addNew ps (getPath env comp file)) ts := by
  have hkp := keyPath_of_faithful (env := env) hf
  unfold idOfRef
  cases hc : s.cache.lookup (cacheKey comp file) with
  | some id =>
    obtain ⟨h1, h2⟩ := h.cache _ _ hc
    rw [hkp] at h1 h2
    have hadd : addNew ps (getPath env comp file) = ps := by unfold addNew; rw [if_pos h1]
    rw [hadd]
    exact ⟨h2, h⟩
  | none =>
    obtain ⟨h1, h2, h3⟩ := idOfPath_spec h (getPath env comp file) hlen
    simp only
    refine ⟨h1, ?_⟩
    constructor
    · exact h2.nodup
    · exact h2.nodupT
    · exact h2.bound
    · exact h2.lookup
    · exact h2.keys
    · exact h2.fake
    · exact h2.ids
    · intro k id hk
      simp only [List.lookup_cons] at hk
      by_cases hkk : k = cacheKey comp file
      · subst hkk
        simp at hk
        rw [hkp]
        exact ⟨mem_addNew_self .., by rw [← hk, h1]⟩
      · have hb : (k == cacheKey comp file) = false := by simpa using hkk
        rw [hb] at hk
        exact h2.cache k id (by rw [h3]; exact hk)

theorem getTrueId_spec {env : SrcEnv} {mem : Mem} {s : SourceFiles} {ps : List Str} {ts : List Nat}
    (h : SrcInv env mem s ps ts) {i : Nat} (hi : i < ps.length) (hlen : i ∈ ts ∨ ts.length < M32) :
    ∃ s', getTrueId s i = .ok ((addNew ts i).idxOf i, s') ∧ SrcInv env mem s' ps (addNew ts i) := by
  unfold getTrueId
  rw [h.fake i, List.getElem?_eq_getElem hi]
  simp only [Option.map_some]
  by_cases ht : i ∈ ts
  · simp only [if_pos ht]
    have hadd : addNew ts i = ts := by unfold addNew; rw [if_pos ht]
    rw [hadd]
    exact ⟨s, rfl, h⟩
  · simp only [if_neg ht]
    have hl : u32 s.idToRef.length = ts.length := by
      rw [h.ids, List.length_map]; exact u32_of_lt (hlen.resolve_left ht)
    rw [hl, idxOf_addNew_new ht]
    refine ⟨_, rfl, ?_⟩
    have hadd : addNew ts i = ts ++ [i] := by unfold addNew; rw [if_neg ht]
    constructor
    · exact h.nodup
    · exact addNew_nodup h.nodupT i
    · intro t h'
      rcases mem_addNew.mp h' with h' | rfl
      · exact h.bound t h'
      · exact hi
    · exact h.lookup
    · exact h.keys
    · intro j
      simp only
      rw [List.getElem?_set]
      by_cases hj : i = j
      · subst hj
        rw [h.fake_length]
        simp [hi, mem_addNew_self, idxOf_addNew_new ht]
      · rw [if_neg hj, h.fake j]
        by_cases hjt : j ∈ ts
        · have : j ∈ addNew ts i := mem_addNew.mpr (.inl hjt)
          simp [hjt, this, idxOf_of_prefix (addNew_prefix ts i) hjt]
        · have : j ∉ addNew ts i := by rw [mem_addNew]; simp [hjt, Ne.symm hj]
          simp [hjt, this]
    · simp only
      rw [h.ids, hadd, List.map_append]
      simp [List.getElem?_eq_getElem hi]
    · exact h.cache

/-- Settled state: every path seen has its FILE record and the two numberings agree. -/
abbrev SrcSettled (env : SrcEnv) (mem : Mem) (s : SourceFiles) (ps : List Str) : Prop :=
  SrcInv env mem s ps (List.range ps.length)

theorem SrcSettled.ids_eq {env : SrcEnv} {mem : Mem} {s : SourceFiles} {ps : List Str}
    (h : SrcSettled env mem s ps) : s.idToRef = ps.map (mapped env) := by
  rw [h.ids]
  apply List.ext_getElem?
  intro i
  simp only [List.getElem?_map]
  by_cases hi : i < ps.length
  · simp [List.getElem?_range hi, List.getElem?_eq_getElem hi]
  · have h1 : ps[i]? = none := List.getElem?_eq_none (by omega)
    have h2 : (List.range ps.length)[i]? = none := List.getElem?_eq_none (by simp; omega)
    rw [h1, h2]; rfl

/-- Asking for the id and then for the true id of a reference keeps the state settled; both ids are the position of the
path. -/
theorem fileId_settled {env : SrcEnv} {mem : Mem} {s : SourceFiles} {ps : List Str}
    (h : SrcSettled env mem s ps) {comp : ByteSlice} {file : FileInfo} (hf : Faithful mem comp file)
    (hlen : getPath env comp file ∈ ps ∨ ps.length < M32) :
    let ps' := addNew ps (getPath env comp file)
    (idOfRef env s comp file).1 = ps'.idxOf (getPath env comp file) ∧
    ∃ s', getTrueId (idOfRef env s comp file).2 (idOfRef env s comp file).1 =
        .ok (ps'.idxOf (getPath env comp file), s') ∧ SrcSettled env mem s' ps' := by
  obtain ⟨h1, h2⟩ := idOfRef_spec h hf hlen
  refine ⟨h1, ?_⟩
  have hlt : (idOfRef env s comp file).1 < (addNew ps (getPath env comp file)).length := by
    rw [h1]; exact List.idxOf_lt_length_of_mem (mem_addNew_self ..)
  by_cases hp : getPath env comp file ∈ ps
  · have hadd : addNew ps (getPath env comp file) = ps := by unfold addNew; rw [if_pos hp]
    rw [hadd] at h1 h2 hlt
    obtain ⟨s', h3, h4⟩ := getTrueId_spec h2 hlt (.inl (by simpa using hlt))
    have hmem : (idOfRef env s comp file).1 ∈ List.range ps.length := by simpa using hlt
    have hadd2 : addNew (List.range ps.length) (idOfRef env s comp file).1 = List.range ps.length := by
      unfold addNew; rw [if_pos hmem]
    rw [hadd2, idxOf_range hlt] at h3
    rw [hadd2] at h4
    rw [hadd]
    exact ⟨s', by rw [h3, ← h1], h4⟩
  · have hid : (idOfRef env s comp file).1 = ps.length := by rw [h1]; exact idxOf_addNew_new hp
    have hlen' := hlen.resolve_left hp
    obtain ⟨s', h3, h4⟩ := getTrueId_spec h2 hlt (.inr (by simpa using hlen'))
    have hnm : (idOfRef env s comp file).1 ∉ List.range ps.length := by rw [hid]; simp
    have hlen2 : (addNew ps (getPath env comp file)).length = ps.length + 1 := by
      unfold addNew; rw [if_neg hp]; simp
    have hadd2 : addNew (List.range ps.length) (idOfRef env s comp file).1 =
        List.range (addNew ps (getPath env comp file)).length := by
      rw [hlen2, List.range_succ]
      unfold addNew; rw [if_neg hnm, hid]
    rw [idxOf_addNew_new hnm] at h3
    rw [hadd2] at h4
    refine ⟨s', ?_, h4⟩
    rw [h3, idxOf_addNew_new hp]; simp

/-- A known file: looking it up changes no numbering. -/
theorem idOfRef_settled_known {env : SrcEnv} {mem : Mem} {s : SourceFiles} {ps : List Str}
    (h : SrcSettled env mem s ps) {comp : ByteSlice} {file : FileInfo} (hf : Faithful mem comp file)
    (hp : getPath env comp file ∈ ps) :
    (idOfRef env s comp file).1 = ps.idxOf (getPath env comp file) ∧
    SrcSettled env mem (idOfRef env s comp file).2 ps := by
  obtain ⟨h1, h2⟩ := idOfRef_spec h hf (.inl hp)
  have hadd : addNew ps (getPath env comp file) = ps := by unfold addNew; rw [if_pos hp]
  rw [hadd] at h1 h2
  exact ⟨h1, h2⟩

end DumpSyms
