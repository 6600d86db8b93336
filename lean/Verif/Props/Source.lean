import Verif.Proof.Source
import Verif.Proof.SourcePath
/-!
# C07, C09: source file ids
-/
namespace DumpSyms
open SourceFiles

/-- What the collector asks of the file table: the id of a file, alone (`look`) or followed by its FILE number
(`number`). -/
inductive SrcReq where
  | look (comp : ByteSlice) (file : FileInfo)
  | number (comp : ByteSlice) (file : FileInfo)
  deriving Repr

namespace SrcReq
def comp : SrcReq → ByteSlice
  | look c _ => c
  | number c _ => c
def file : SrcReq → FileInfo
  | look _ f => f
  | number _ f => f
/-- The path the request is about. -/
def path (env : SrcEnv) (r : SrcReq) : Str := getPath env r.comp r.file
def isNumber : SrcReq → Bool
  | look _ _ => false
  | number _ _ => true
end SrcReq

/-- Run one request. -/
def srcStep (env : SrcEnv) (s : SourceFiles) : SrcReq → Res (Nat × SourceFiles)
  | .look c f => getId env s c f
  | .number c f => do
    let (i, s) ← getId env s c f
    getTrueId s i

/-- Run a list of requests; the answers in order. -/
def srcRun (env : SrcEnv) : SourceFiles → List SrcReq → Res (List Nat × SourceFiles)
  | s, [] => .ok ([], s)
  | s, r :: rs => do
    let (i, s) ← srcStep env s r
    let (is, s) ← srcRun env s rs
    .ok (i :: is, s)

theorem srcStep_spec {env : SrcEnv} {mem : Mem} {s : SourceFiles} {ps : List Str} {ts : List Nat}
    (h : SrcInv env mem s ps ts) (r : SrcReq) (hf : Faithful mem r.comp r.file) (U : List Str)
    (hU : U.length ≤ M32) (hps : ∀ p ∈ ps, p ∈ U) (hr : r.path env ∈ U) (hm : env.mapPanics (r.path env) = false) :
    ∃ id s' ps' ts', srcStep env s r = .ok (id, s') ∧ SrcInv env mem s' ps' ts' ∧ ps <+: ps' ∧ ts <+: ts' ∧
      (∀ p ∈ ps', p ∈ U) ∧
      (r.isNumber = true → r.path env ∈ ps' ∧ ps'.idxOf (r.path env) ∈ ts' ∧
        id = ts'.idxOf (ps'.idxOf (r.path env))) := by
  have hlen : r.path env ∈ ps ∨ ps.length < M32 := by
    by_cases hp : r.path env ∈ ps
    · exact .inl hp
    · exact .inr (Nat.lt_of_lt_of_le (length_lt_of_nodup h.nodup hps hp hr) hU)
  obtain ⟨h1, h2⟩ := idOfRef_spec h hf hlen
  have hps' : ∀ p ∈ addNew ps (r.path env), p ∈ U := by
    intro p hp
    rcases mem_addNew.mp hp with hp | rfl
    · exact hps p hp
    · exact hr
  cases r with
  | look c f =>
    exact ⟨_, _, _, ts, getId_eq hm s, h2, addNew_prefix .., List.prefix_refl _, hps', by intro h; cases h⟩
  | number c f =>
    simp only [SrcReq.comp, SrcReq.file, SrcReq.path] at *
    have hlt : (idOfRef env s c f).1 < (addNew ps (getPath env c f)).length := by
      rw [h1]; exact List.idxOf_lt_length_of_mem (mem_addNew_self ..)
    have htl : (idOfRef env s c f).1 ∈ ts ∨ ts.length < M32 := by
      by_cases ht : (idOfRef env s c f).1 ∈ ts
      · exact .inl ht
      · right
        have a : ts.length < (List.range (addNew ps (getPath env c f)).length).length := by
          apply length_lt_of_nodup h.nodupT _ ht
          · simpa using hlt
          · intro t ht
            simpa using h2.bound t ht
        have b := List.Nodup.length_le_of_subset h2.nodup (l₂ := U) (fun x hx => hps' x hx)
        simp at a
        omega
    obtain ⟨s', h3, h4⟩ := getTrueId_spec h2 hlt htl
    refine ⟨_, s', _, _, by simp only [srcStep]; rw [getId_eq hm]; exact h3, h4, addNew_prefix .., addNew_prefix .., hps', ?_⟩
    intro _
    refine ⟨mem_addNew_self .., ?_, ?_⟩
    · rw [← h1]; exact mem_addNew_self ..
    · rw [← h1]

theorem srcRun_spec {env : SrcEnv} {mem : Mem} (U : List Str) (hU : U.length ≤ M32) (rs : List SrcReq) :
    ∀ {s : SourceFiles} {ps : List Str} {ts : List Nat}, SrcInv env mem s ps ts → (∀ p ∈ ps, p ∈ U) →
      (∀ r ∈ rs, Faithful mem r.comp r.file ∧ r.path env ∈ U ∧ env.mapPanics (r.path env) = false) →
    ∃ ids s' ps' ts', srcRun env s rs = .ok (ids, s') ∧ SrcInv env mem s' ps' ts' ∧ ps <+: ps' ∧ ts <+: ts' ∧
      ids.length = rs.length ∧
      (∀ (i : Nat) (r : SrcReq), rs[i]? = some r → r.isNumber = true → r.path env ∈ ps' ∧ ps'.idxOf (r.path env) ∈ ts' ∧
        ids[i]? = some (ts'.idxOf (ps'.idxOf (r.path env)))) := by
  induction rs with
  | nil =>
    intro s ps ts h _ _
    exact ⟨[], s, ps, ts, rfl, h, List.prefix_refl _, List.prefix_refl _, rfl, by intro i r h; simp at h⟩
  | cons r rs ih =>
    intro s ps ts h hps hrs
    obtain ⟨hf, hr, hm⟩ := hrs r (by simp)
    obtain ⟨id, s1, ps1, ts1, e1, i1, p1, t1, u1, n1⟩ := srcStep_spec h r hf U hU hps hr hm
    obtain ⟨ids, s2, ps2, ts2, e2, i2, p2, t2, l2, n2⟩ := ih i1 u1 (fun r hr => hrs r (by simp [hr]))
    refine ⟨id :: ids, s2, ps2, ts2, ?_, i2, p1.trans p2, t1.trans t2, by simp [l2], ?_⟩
    · simp [srcRun, e1, e2]
    · intro i r' hi hn
      cases i with
      | zero =>
        simp at hi; subst hi
        obtain ⟨a, b, c⟩ := n1 hn
        have e : ps2.idxOf (r.path env) = ps1.idxOf (r.path env) := idxOf_of_prefix p2 a
        refine ⟨p2.subset a, ?_, ?_⟩
        · rw [e]; exact t2.subset b
        · rw [e, idxOf_of_prefix t2 b]; simp [c]
      | succ i =>
        simp at hi
        obtain ⟨a, b, c⟩ := n2 i r' hi hn
        exact ⟨a, b, by simpa using c⟩

/-- **C07.** For any history of requests (on slices that keep showing the same text, with at most 2^32 distinct paths, none of
which makes the mapping panic):
no request panics; two numbered references get the same FILE number exactly when they have the same path; and the FILE
record with that number carries the mapped path (the path itself when there is no mapping for it). -/
theorem C07_file_ids (env : SrcEnv) (mem : Mem) (rs : List SrcReq)
    (hf : ∀ r ∈ rs, Faithful mem r.comp r.file)
    (U : List Str) (hU : U.length ≤ M32)
    (hpath : ∀ r ∈ rs, ∃ p, env.Records r.comp r.file p ∧ p ∈ U ∧ env.mapPanics p = false) :
    ∃ ids s, srcRun env SourceFiles.new rs = .ok (ids, s) ∧ ids.length = rs.length ∧
      (∀ (i j : Nat) (r r' : SrcReq), rs[i]? = some r → rs[j]? = some r' → r.isNumber = true → r'.isNumber = true →
        (ids[i]? = ids[j]? ↔ ∃ p, env.Records r.comp r.file p ∧ env.Records r'.comp r'.file p)) ∧
      (∀ (i : Nat) (r : SrcReq), rs[i]? = some r → r.isNumber = true → ∃ id p, ids[i]? = some id ∧
        env.Records r.comp r.file p ∧ s.getMapping.getMapping[id]? = some ((env.mapping p).getD p)) := by
  simp only [records_iff, exists_eq_left] at hpath ⊢
  obtain ⟨ids, s, ps, ts, h1, h2, _, _, h3, h4⟩ :=
    srcRun_spec U hU rs (srcInv_new env mem) (by simp) (fun r hr => ⟨hf r hr, hpath r hr⟩)
  refine ⟨ids, s, h1, h3, ?_, ?_⟩
  · intro i j r r' hi hj hn hn'
    obtain ⟨a, b, c⟩ := h4 i r hi hn
    obtain ⟨a', b', c'⟩ := h4 j r' hj hn'
    rw [c, c']
    constructor
    · intro h
      exact idxOf_inj a a' (idxOf_inj b b' (Option.some.inj h))
    · intro h
      have h : r.path env = r'.path env := h
      rw [h]
  · intro i r hi hn
    obtain ⟨a, b, c⟩ := h4 i r hi hn
    refine ⟨_, _, c, rfl, ?_⟩
    show s.idToRef[_]? = _
    rw [h2.ids, List.getElem?_map, getElem?_idxOf b]
    have ha := getElem?_idxOf a
    unfold SrcReq.path at ha
    simp [ha, mapped, SrcReq.path]

/-- One request without the pointer cache. -/
def srcStepNoCache (env : SrcEnv) (s : SourceFiles) : SrcReq → Res (Nat × SourceFiles)
  | .look c f => getIdOfPath env s (getPath env c f)
  | .number c f => do
    let (i, s) ← getIdOfPath env s (getPath env c f)
    getTrueId s i

/-- A list of requests without the pointer cache. -/
def srcRunNoCache (env : SrcEnv) : SourceFiles → List SrcReq → Res (List Nat × SourceFiles)
  | s, [] => .ok ([], s)
  | s, r :: rs => do
    let (i, s) ← srcStepNoCache env s r
    let (is, s) ← srcRunNoCache env s rs
    .ok (i :: is, s)

/-- Forget the cache. -/
def dropCache (s : SourceFiles) : SourceFiles := { s with cache := [] }

/-- Forget the cache in an outcome. -/
def dropCacheR {α : Type} : Res (α × SourceFiles) → Res (α × SourceFiles)
  | .ok (a, s) => .ok (a, dropCache s)
  | .err m => .err m
  | .panic => .panic

/-- Every cached id is the id of the path its key stands for. -/
def CacheOk (env : SrcEnv) (mem : Mem) (s : SourceFiles) : Prop :=
  ∀ k id, s.cache.lookup k = some id → s.refToId.lookup (keyPath env mem k) = some id

theorem getIdOfPath_dropCache (env : SrcEnv) (s : SourceFiles) (p : Str) :
    getIdOfPath env (dropCache s) p = dropCacheR (getIdOfPath env s p) := by
  unfold getIdOfPath dropCache
  simp only
  cases s.refToId.lookup p with
  | some i => rfl
  | none => cases env.mapPanics p <;> rfl

theorem getTrueId_dropCache (s : SourceFiles) (i : Nat) :
    getTrueId (dropCache s) i = dropCacheR (getTrueId s i) := by
  unfold getTrueId dropCache
  simp only
  match s.fakeIdToRef[i]? with
  | none => rfl
  | some (some _, _) => rfl
  | some (none, _) => rfl

theorem getIdOfPath_lookup {env : SrcEnv} {s s' : SourceFiles} {p : Str} {i : Nat} (h : getIdOfPath env s p = .ok (i, s')) :
    s'.refToId.lookup p = some i ∧ s'.cache = s.cache ∧
    ∀ q j, s.refToId.lookup q = some j → s'.refToId.lookup q = some j := by
  unfold getIdOfPath at h
  cases hl : s.refToId.lookup p with
  | some k =>
    rw [hl] at h
    cases h
    exact ⟨hl, rfl, fun _ _ h => h⟩
  | none =>
    rw [hl] at h
    simp only at h
    split at h
    · cases h
    · cases h
      refine ⟨by simp, rfl, ?_⟩
      intro q j hq
      have hne : q ≠ p := by rintro rfl; rw [hq] at hl; cases hl
      have hb : (q == p) = false := by simpa using hne
      simp [List.lookup_cons, hb, hq]

theorem getId_transparent {env : SrcEnv} {mem : Mem} {s : SourceFiles} (h : CacheOk env mem s)
    {c : ByteSlice} {f : FileInfo} (hf : Faithful mem c f) :
    getIdOfPath env (dropCache s) (getPath env c f) = dropCacheR (getId env s c f) ∧
    ∀ i s', getId env s c f = .ok (i, s') → CacheOk env mem s' := by
  have hk := keyPath_of_faithful (env := env) hf
  rw [getIdOfPath_dropCache]
  unfold getId
  cases hc : s.cache.lookup (cacheKey c f) with
  | some id =>
    have hl := h _ _ hc
    rw [hk] at hl
    refine ⟨?_, ?_⟩
    · unfold getIdOfPath
      rw [hl]
    · intro i s' he
      cases he
      exact h
  | none =>
    simp only
    cases hp : getIdOfPath env s (getPath env c f) with
    | err m => exact ⟨rfl, fun _ _ h => by cases h⟩
    | panic => exact ⟨rfl, fun _ _ h => by cases h⟩
    | ok x =>
      obtain ⟨i, s1⟩ := x
      obtain ⟨g1, g2, g3⟩ := getIdOfPath_lookup hp
      refine ⟨rfl, ?_⟩
      intro j s' he
      cases he
      intro k id hlk
      simp only at hlk ⊢
      by_cases hkk : k = cacheKey c f
      · subst hkk
        simp at hlk
        rw [hk, ← hlk]
        exact g1
      · have hb : (k == cacheKey c f) = false := by simpa using hkk
        rw [List.lookup_cons, hb, g2] at hlk
        exact g3 _ _ (h k id hlk)

theorem getTrueId_keeps {s s' : SourceFiles} {i t : Nat} (h : getTrueId s i = .ok (t, s')) :
    s'.cache = s.cache ∧ s'.refToId = s.refToId := by
  unfold getTrueId at h
  split at h
  · cases h
  · cases h; exact ⟨rfl, rfl⟩
  · cases h; exact ⟨rfl, rfl⟩

theorem srcStep_transparent {env : SrcEnv} {mem : Mem} {s : SourceFiles} (h : CacheOk env mem s) {r : SrcReq}
    (hf : Faithful mem r.comp r.file) :
    srcStepNoCache env (dropCache s) r = dropCacheR (srcStep env s r) ∧
    (∀ i s', srcStep env s r = .ok (i, s') → CacheOk env mem s') := by
  cases r with
  | look c f => exact getId_transparent h hf
  | number c f =>
    obtain ⟨h1, h2⟩ := getId_transparent h hf
    simp only [SrcReq.comp, SrcReq.file] at h1 h2
    simp only [srcStepNoCache, srcStep, h1]
    cases hg : getId env s c f with
    | err m => exact ⟨rfl, fun _ _ h => by cases h⟩
    | panic => exact ⟨rfl, fun _ _ h => by cases h⟩
    | ok x =>
      obtain ⟨i, s1⟩ := x
      refine ⟨getTrueId_dropCache s1 i, ?_⟩
      intro j s' he
      simp only [Res.bind_ok] at he
      obtain ⟨a, b⟩ := getTrueId_keeps he
      intro k id hk
      rw [a] at hk; rw [b]
      exact h2 i s1 hg k id hk

/-- **C09.** With or without the pointer cache, every history of requests on slices that keep showing the same text
gives the same answers (or panics alike) and the same tables. -/
theorem C09_cache_transparent (env : SrcEnv) (mem : Mem) (rs : List SrcReq)
    (hf : ∀ r ∈ rs, Faithful mem r.comp r.file) :
    dropCacheR (srcRun env SourceFiles.new rs) = srcRunNoCache env SourceFiles.new rs := by
  have key : ∀ (rs : List SrcReq) (s : SourceFiles), CacheOk env mem s →
      (∀ r ∈ rs, Faithful mem r.comp r.file) →
      dropCacheR (srcRun env s rs) = srcRunNoCache env (dropCache s) rs := by
    intro rs
    induction rs with
    | nil => intro s _ _; rfl
    | cons r rs ih =>
      intro s hs hrs
      obtain ⟨h1, h2⟩ := srcStep_transparent hs (hrs r (by simp))
      simp only [srcRun, srcRunNoCache, h1]
      cases he : srcStep env s r with
      | ok x =>
        obtain ⟨i, s1⟩ := x
        have hi := ih s1 (h2 i s1 he) (fun r hr => hrs r (by simp [hr]))
        simp only [dropCacheR, Res.bind_ok]
        rw [← hi]
        cases srcRun env s1 rs with
        | ok y => rfl
        | err m => rfl
        | panic => rfl
      | err m => rfl
      | panic => rfl
  exact key rs SourceFiles.new (by intro k id h; simp [SourceFiles.new] at h) hf

/-- A small world: no mapping except for `/b/x.c`. -/
def sampleEnv : SrcEnv where
  platform := .linux
  canonicalize := true
  canon := fun _ => none
  mapping := fun p => if p = str% "/b/x.c" then some (str% "git:x.c") else none

def sampleComp : ByteSlice := ⟨(100, 2), [47, 98]⟩
def sampleFile1 : FileInfo := ⟨(200, 0), [], (300, 3), str% "x.c"⟩
def sampleFile2 : FileInfo := ⟨(210, 1), str% ".", (310, 3), str% "x.c"⟩
def sampleFile3 : FileInfo := ⟨(220, 2), str% "/c", (320, 3), str% "y.c"⟩

/-- Three spellings, two files; the first two spellings denote `/b/x.c`. -/
example : (srcRun sampleEnv SourceFiles.new
    [.number sampleComp sampleFile3, .look sampleComp sampleFile1, .number sampleComp sampleFile2,
     .number sampleComp sampleFile1]).bind (fun x => .ok (x.1, x.2.getMapping.getMapping)) =
    .ok ([0, 1, 1, 1], [str% "/c/y.c", str% "git:x.c"]) := by decide

/-- The hypothesis of C09 is needed: when a freed buffer is reused for another name (same pointer and length, other
text), the cache answers with the id of the old file. -/
theorem C09_pointer_reuse_witness :
    ∃ (env : SrcEnv) (rs : List SrcReq), dropCacheR (srcRun env SourceFiles.new rs) ≠
      srcRunNoCache env SourceFiles.new rs :=
  ⟨sampleEnv, [.number sampleComp sampleFile1, .number sampleComp { sampleFile1 with name := str% "z.c" }], by decide⟩

end DumpSyms
