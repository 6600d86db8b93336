import Verif.Proof.Names
import Verif.Model.InlineOrigins
import Verif.Base.Lst
/-!
# C05, C06 (first half): inline origins
-/
namespace DumpSyms
open InlineOrigins

/-- Ask for the ids of a list of names, starting from an empty table. -/
def requestIds (dm : Demangler) : InlineOrigins → List Name → List Nat × InlineOrigins
  | s, [] => ([], s)
  | s, n :: ns =>
    let (i, s1) := getId dm s n
    let (is, s2) := requestIds dm s1 ns
    (i :: is, s2)

/-- The distinct names, in order of first appearance. -/
def firstUses : List Name → List Name → List Name
  | seen, [] => seen
  | seen, n :: ns => if n ∈ seen then firstUses seen ns else firstUses (seen ++ [n]) ns

/-- The table after names `seen` (distinct, in order of first use) have been requested. -/
structure OriginsInv (dm : Demangler) (s : InlineOrigins) (seen : List Name) : Prop where
  nodup : seen.Nodup
  names : s.demangledNames = seen.map (demangleAndSanitize dm)
  lookup : ∀ n, s.index.lookup n = if n ∈ seen then some (seen.idxOf n) else none

theorem getId_inv {dm : Demangler} {s : InlineOrigins} {seen : List Name} (h : OriginsInv dm s seen)
    (hlen : seen.length < M32) (n : Name) :
    let seen' := if n ∈ seen then seen else seen ++ [n]
    (getId dm s n).1 = seen'.idxOf n ∧ OriginsInv dm (getId dm s n).2 seen' := by
  unfold getId
  rw [h.lookup n]
  by_cases hn : n ∈ seen
  · simp only [if_pos hn]
    exact ⟨trivial, h⟩
  · simp only [if_neg hn]
    have hl : u32 s.demangledNames.length = seen.length := by
      rw [h.names, List.length_map]; exact u32_of_lt hlen
    rw [hl]
    have hidx : (seen ++ [n]).idxOf n = seen.length := by
      rw [List.idxOf_append, if_neg hn]; simp
    refine ⟨hidx.symm, ?_, ?_, ?_⟩
    · rw [List.nodup_append]
      refine ⟨h.nodup, by simp, ?_⟩
      intro a ha b hb
      simp at hb; subst hb
      rintro rfl; exact hn ha
    · simp [h.names]
    · intro m
      simp only [List.lookup_cons]
      by_cases hm : m = n
      · subst hm
        simp [hidx]
      · have hb : (m == n) = false := by simpa using hm
        rw [hb, h.lookup m]
        by_cases hms : m ∈ seen
        · simp [hms, List.idxOf_append]
        · simp [hms, hm]

theorem firstUses_prefix (seen ns : List Name) : ∃ more, firstUses seen ns = seen ++ more := by
  induction ns generalizing seen with
  | nil => exact ⟨[], by simp [firstUses]⟩
  | cons n ns ih =>
    unfold firstUses
    split
    · exact ih seen
    · obtain ⟨m, hm⟩ := ih (seen ++ [n])
      exact ⟨n :: m, by rw [hm]; simp⟩

theorem requestIds_spec {dm : Demangler} (ns : List Name) :
    ∀ {s : InlineOrigins} {seen : List Name}, OriginsInv dm s seen → (firstUses seen ns).length ≤ M32 →
      (requestIds dm s ns).1 = ns.map (fun n => (firstUses seen ns).idxOf n) ∧
      OriginsInv dm (requestIds dm s ns).2 (firstUses seen ns) := by
  induction ns with
  | nil => intro s seen h _; exact ⟨rfl, h⟩
  | cons n ns ih =>
    intro s seen h hlen
    have hstep : firstUses seen (n :: ns) = firstUses (if n ∈ seen then seen else seen ++ [n]) ns := by
      rw [firstUses]; split <;> rfl
    obtain ⟨more, hmore⟩ := firstUses_prefix (if n ∈ seen then seen else seen ++ [n]) ns
    rw [hstep] at hlen ⊢
    have hmem : n ∈ (if n ∈ seen then seen else seen ++ [n]) := by split <;> simp_all
    have hl : n ∈ seen ∨ seen.length < M32 := by
      by_cases hn : n ∈ seen
      · exact .inl hn
      · right
        rw [hmore, if_neg hn] at hlen
        simp at hlen; omega
    obtain ⟨h1, h2⟩ : (getId dm s n).1 = (if n ∈ seen then seen else seen ++ [n]).idxOf n ∧
        OriginsInv dm (getId dm s n).2 (if n ∈ seen then seen else seen ++ [n]) := by
      rcases hl with hn | hl
      · unfold getId
        rw [h.lookup n]
        simp only [if_pos hn]
        exact ⟨trivial, h⟩
      · exact getId_inv h hl n
    obtain ⟨h3, h4⟩ := ih h2 hlen
    refine ⟨?_, by simpa [requestIds] using h4⟩
    simp only [requestIds, List.map_cons]
    rw [h3, h1]
    congr 1
    rw [hmore, List.idxOf_append, if_pos hmem]

theorem firstUses_mem (seen ns : List Name) (n : Name) : n ∈ firstUses seen ns ↔ n ∈ seen ∨ n ∈ ns := by
  induction ns generalizing seen with
  | nil => simp [firstUses]
  | cons m ns ih =>
    unfold firstUses
    split
    · rw [ih]
      constructor
      · rintro (h | h)
        · exact .inl h
        · exact .inr (by simp [h])
      · rintro (h | h)
        · exact .inl h
        · rcases List.mem_cons.mp h with rfl | h
          · left; assumption
          · exact .inr h
    · rw [ih]; simp [or_assoc]

/-- **C05.** For any sequence of requests: the ids are the positions in the list of distinct names in order of first
use (hence equal for equal names, different for different names, and dense), and the printed list carries at position
`id` the text computed from the name that was given `id`. -/
theorem C05_inline_origin_ids (dm : Demangler) (ns : List Name) (hlen : (firstUses [] ns).length ≤ M32) :
    let ids := (requestIds dm empty ns).1
    let list := (requestIds dm empty ns).2.getList
    ids = ns.map (fun n => (firstUses [] ns).idxOf n) ∧
    OriginNames dm (firstUses [] ns) list ∧
    (∀ i j (hi : i < ns.length) (hj : j < ns.length), ids[i]? = ids[j]? ↔ ns[i] = ns[j]) ∧
    (∀ i (hi : i < ns.length), ∃ id t, ids[i]? = some id ∧ list[id]? = some t ∧ OriginName dm ns[i] t) ∧
    (∀ id, id < list.length ↔ id ∈ ids) := by
  have h0 : OriginsInv dm empty [] := ⟨by simp, rfl, by intro n; rfl⟩
  obtain ⟨h1, h2⟩ := requestIds_spec ns h0 hlen
  have hlist : (requestIds dm empty ns).2.getList = (firstUses [] ns).map (demangleAndSanitize dm) := h2.names
  have hmem : ∀ n ∈ ns, n ∈ firstUses [] ns := fun n hn => (firstUses_mem [] ns n).mpr (.inr hn)
  refine ⟨h1, (originNames_iff _ _ _).mpr hlist, ?_, ?_, ?_⟩
  · intro i j hi hj
    rw [h1]
    simp only [List.getElem?_map, List.getElem?_eq_getElem hi, List.getElem?_eq_getElem hj, Option.map_some,
      Option.some.injEq]
    constructor
    · intro h
      have a := List.getElem_idxOf (List.idxOf_lt_length_of_mem (hmem _ (List.getElem_mem hi)))
      have b := List.getElem_idxOf (List.idxOf_lt_length_of_mem (hmem _ (List.getElem_mem hj)))
      rw [← a, ← b]
      simp only [h]
    · intro h; rw [h]
  · intro i hi
    refine ⟨(firstUses [] ns).idxOf ns[i], _, ?_, ?_, (originName_iff _ _ _).mpr rfl⟩
    · rw [h1]; simp [List.getElem?_eq_getElem hi]
    · rw [hlist, List.getElem?_map]
      have a := List.getElem_idxOf (List.idxOf_lt_length_of_mem (hmem _ (List.getElem_mem hi)))
      rw [List.getElem?_eq_getElem (List.idxOf_lt_length_of_mem (hmem _ (List.getElem_mem hi))), a]
      rfl
  · intro id
    rw [h1, hlist, List.length_map, List.mem_map]
    constructor
    · intro h
      refine ⟨(firstUses [] ns)[id], ?_, ?_⟩
      · have := (firstUses_mem [] ns _).mp (List.getElem_mem h)
        simpa using this
      · exact List.Nodup.idxOf_getElem h2.nodup id h
    · rintro ⟨n, hn, rfl⟩
      exact List.idxOf_lt_length_of_mem (hmem n hn)

/-- Three requests, two distinct names, one of them with a newline in its demangled form. -/
example : let dm : Demangler := fun n => some (n.text ++ str% "()\n")
    let f : Name := ⟨str% "f", true, .other 1⟩
    let g : Name := ⟨str% "g.cold", true, .c⟩
    (requestIds dm empty [f, g, f]).1 = [0, 1, 0] ∧
      (requestIds dm empty [f, g, f]).2.getList = [str% "f()", str% "g"] := by decide

/-- **C06 (stored names).** Whatever the demangler returns, the stored text has no ASCII control character. -/
theorem C06_origin_no_control (dm : Demangler) (ns : List Name) (hlen : (firstUses [] ns).length ≤ M32) :
    ∀ s ∈ (requestIds dm empty ns).2.getList, ∀ c ∈ s, ¬ (c.toNat < 32 ∨ c.toNat = 127) := by
  have h := (originNames_iff _ _ _).mp (C05_inline_origin_ids dm ns hlen).2.1
  intro s hs c hc
  rw [h, List.mem_map] at hs
  obtain ⟨n, _, rfl⟩ := hs
  unfold demangleAndSanitize at hc
  rw [List.mem_filter] at hc
  have := hc.2
  simp [isAsciiControl] at this
  omega

end DumpSyms
