import Verif.Spec.Object
/-!
# Embedded debug data
-/
namespace DumpSyms
open ObjectInfo Collector

theorem miniDebugInfo_none (unxz : List Nat → Option (List Nat)) (data : List Nat) (l : List Section)
    (h : ∀ x ∈ l, x.name ≠ some (str% ".gnu_debugdata")) : miniDebugInfo unxz data l = .ok none := by
  induction l with
  | nil => rfl
  | cons x l ih =>
    unfold miniDebugInfo
    rw [if_neg (h x (by simp))]
    exact ih fun y hy => h y (by simp [hy])

theorem miniDebugInfo_first (unxz : List Nat → Option (List Nat)) (data : List Nat) (before : List Section) (h : Section)
    (after : List Section) (hn : h.name = some (str% ".gnu_debugdata")) (hb : ∀ x ∈ before, x.name ≠ some (str% ".gnu_debugdata")) :
    miniDebugInfo unxz data (before ++ h :: after) =
      if h.offset + h.size ≤ data.length then .ok (unxz ((data.drop h.offset).take h.size)) else .panic := by
  induction before with
  | nil =>
    simp only [List.nil_append, miniDebugInfo]
    rw [if_pos hn]
  | cons x l ih =>
    simp only [List.cons_append, miniDebugInfo]
    rw [if_neg (hb x (by simp))]
    exact ih fun y hy => hb y (by simp [hy])

theorem first_or_none (l : List Section) : (∀ x ∈ l, x.name ≠ some (str% ".gnu_debugdata")) ∨
    ∃ before h after, l = before ++ h :: after ∧ h.name = some (str% ".gnu_debugdata") ∧
      ∀ x ∈ before, x.name ≠ some (str% ".gnu_debugdata") := by
  induction l with
  | nil => exact .inl (by simp)
  | cons x l ih =>
    by_cases hx : x.name = some (str% ".gnu_debugdata")
    · exact .inr ⟨[], x, l, rfl, hx, by simp⟩
    · rcases ih with h | ⟨b, h, a, rfl, h2, h3⟩
      · exact .inl fun y hy => (List.mem_cons.mp hy).elim (fun e => e ▸ hx) (h y)
      · exact .inr ⟨x :: b, h, a, rfl, h2, fun y hy => (List.mem_cons.mp hy).elim (fun e => e ▸ hx) (h3 y)⟩

/-- The two cases: no embedded data, or a first section that has it. -/
theorem miniPublics_cases (main : ObjInput) :
    ((∀ h, ¬ main.EmbeddedIn h) ∧ miniPublics main = .ok none) ∨
    ∃ h, main.EmbeddedIn h ∧ miniPublics main =
      if h.offset + h.size ≤ main.data.length then .ok ((main.unxz ((main.data.drop h.offset).take h.size)).bind main.parsePublics)
      else .panic := by
  unfold miniPublics getCompressedMinidebuginfo
  split
  · rename_i l hk
    rcases first_or_none l with h | ⟨b, h, a, rfl, h2, h3⟩
    · left
      rw [miniDebugInfo_none _ _ _ h]
      refine ⟨?_, rfl⟩
      rintro x ⟨b, a, e, e1, _⟩
      rw [hk] at e
      cases e
      exact h x (by simp) e1
    · right
      refine ⟨h, ⟨b, a, hk, h2, h3⟩, ?_⟩
      rw [miniDebugInfo_first _ _ _ _ _ h2 h3]
      split <;> rfl
  · rename_i hk
    left
    refine ⟨?_, rfl⟩
    rintro x ⟨b, a, e, _⟩
    exact hk _ e

theorem miniPublics_ok {main : ObjInput} (h : main.EmbeddedInside) : ∃ r, miniPublics main = .ok r := by
  rcases miniPublics_cases main with ⟨_, e⟩ | ⟨x, hx, e⟩
  · exact ⟨_, e⟩
  · rw [if_pos (h x hx)] at e; exact ⟨_, e⟩

theorem embeddedInside_of_kind {main : ObjInput} (h : ∀ l, main.kind = .elf l → l = []) : main.EmbeddedInside := by
  rintro x ⟨b, a, e, _⟩
  have := h _ e
  simp at this

theorem embeddedIn_unique {main : ObjInput} {h k : Section} (a : main.EmbeddedIn h) (b : main.EmbeddedIn k) : h = k := by
  obtain ⟨b1, a1, e1, n1, f1⟩ := a
  obtain ⟨b2, a2, e2, n2, f2⟩ := b
  rw [e1] at e2
  injection e2 with e
  clear e1
  induction b1 generalizing b2 with
  | nil =>
    cases b2 with
    | nil => simp at e; exact e.1
    | cons x l => simp at e; exact absurd (e.1 ▸ n1) (f2 x (by simp))
  | cons x l ih =>
    cases b2 with
    | nil => simp at e; exact absurd (e.1 ▸ n2) (f1 x (by simp))
    | cons y l2 =>
      simp at e
      exact ih (fun z hz => f1 z (by simp [hz])) l2 (fun z hz => f2 z (by simp [hz])) e.2

theorem slice_iff {data packed : List Nat} {o n : Nat} (h : o + n ≤ data.length) :
    (∃ pre post, data = pre ++ packed ++ post ∧ pre.length = o ∧ packed.length = n) ↔ packed = (data.drop o).take n := by
  constructor
  · rintro ⟨pre, post, rfl, rfl, rfl⟩
    simp
  · rintro rfl
    refine ⟨data.take o, (data.drop o).drop n, ?_, ?_, ?_⟩
    · rw [List.append_assoc, List.take_append_drop, List.take_append_drop]
    · simp; omega
    · simp; omega

theorem embeds_iff {main : ObjInput} (hin : main.EmbeddedInside) (ps : List Public) :
    main.Embeds ps ↔ ∃ r, miniPublics main = .ok r ∧ ps = r.getD [] := by
  rcases miniPublics_cases main with ⟨h1, h2⟩ | ⟨h, h1, h2⟩
  · rw [h2]
    constructor
    · rintro (⟨h, a, _⟩ | ⟨rfl, _⟩)
      · exact absurd a (h1 h)
      · exact ⟨none, rfl, rfl⟩
    · rintro ⟨r, e, rfl⟩
      cases e
      exact .inr ⟨rfl, fun h a => absurd a (h1 h)⟩
  · have hle := hin h h1
    rw [if_pos hle] at h2
    rw [h2]
    constructor
    · rintro (⟨k, a, bytes, packed, hs, u1, u2⟩ | ⟨rfl, hn⟩)
      · cases embeddedIn_unique h1 a
        rw [slice_iff hle] at hs
        subst hs
        exact ⟨_, rfl, by simp [u1, u2]⟩
      · refine ⟨_, rfl, ?_⟩
        obtain ⟨pre, post, d1, d2, d3⟩ := (slice_iff (packed := (main.data.drop h.offset).take h.size) hle).mpr rfl
        cases hu : main.unxz ((main.data.drop h.offset).take h.size) with
        | none => rfl
        | some b => simp [hn h h1 pre _ post d1 d2 d3 b hu]
    · rintro ⟨r, e, rfl⟩
      cases e
      cases hu : main.unxz ((main.data.drop h.offset).take h.size) with
      | none =>
        refine .inr ⟨rfl, ?_⟩
        intro k a pre packed post d1 d2 d3 bytes hb
        cases embeddedIn_unique h1 a
        cases (slice_iff (packed := packed) hle).mp ⟨pre, post, d1, d2, d3⟩
        rw [hu] at hb; cases hb
      | some b =>
        cases hp : main.parsePublics b with
        | none =>
          refine .inr ⟨by simp [hp], ?_⟩
          intro k a pre packed post d1 d2 d3 bytes hb
          cases embeddedIn_unique h1 a
          cases (slice_iff (packed := packed) hle).mp ⟨pre, post, d1, d2, d3⟩
          rw [hu] at hb; cases hb; exact hp
        | some ps => exact .inl ⟨h, h1, b, _, (slice_iff hle).mpr rfl, hu, by simp [hp]⟩

end DumpSyms
