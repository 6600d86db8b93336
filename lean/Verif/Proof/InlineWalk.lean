import Verif.Proof.CollectorPure
import Verif.Spec.Inline
import Verif.Spec.Lines
/-!
# The walk over line entries and inline ranges, for well-formed functions
-/
namespace DumpSyms
open Collector

def Ev.start : Ev → Nat
  | .self s _ _ _ => s
  | .call r _ _ => r.start
def Ev.stop : Ev → Nat
  | .self _ t _ _ => t
  | .call r _ _ => r.stop
def Ev.info : Ev → Nat × Nat
  | .self _ _ n f => (n, f)
  | .call _ n f => (n, f)
@[simp] theorem Ev.start_self (s t n f : Nat) : (Ev.self s t n f).start = s := rfl
@[simp] theorem Ev.stop_self (s t n f : Nat) : (Ev.self s t n f).stop = t := rfl
@[simp] theorem Ev.info_self (s t n f : Nat) : (Ev.self s t n f).info = (n, f) := rfl
@[simp] theorem Ev.start_call (r : IRange64) (n f : Nat) : (Ev.call r n f).start = r.start := rfl
@[simp] theorem Ev.stop_call (r : IRange64) (n f : Nat) : (Ev.call r n f).stop = r.stop := rfl
@[simp] theorem Ev.info_call (r : IRange64) (n f : Nat) : (Ev.call r n f).info = (n, f) := rfl
def Ev.Covers (e : Ev) (a : Nat) : Prop := e.start ≤ a ∧ a < e.stop

/-- Events in address order, none empty, none overlapping. -/
def EvOrd (es : List Ev) : Prop := es.Pairwise (fun e e' => e.stop ≤ e'.start) ∧ ∀ e ∈ es, e.start < e.stop

/-- Ranges in address order, none empty, none overlapping. -/
def RangeOrd (rs : List IRange64) : Prop := rs.Pairwise (fun r r' => r.stop ≤ r'.start) ∧ ∀ r ∈ rs, r.start < r.stop

theorem evLine_spec (num file lineEnd : Nat) (inl : List IRange64) :
    ∀ cur, cur ≤ lineEnd → RangeOrd inl →
      (∀ r ∈ inl, cur ≤ r.start ∧ (r.stop ≤ lineEnd ∨ lineEnd ≤ r.start)) →
      let out := evLine num file lineEnd inl cur
      out.cur = lineEnd ∧ EvOrd out.evs ∧
      (∀ e ∈ out.evs, cur ≤ e.start ∧ e.stop ≤ lineEnd ∧ e.info = (num, file)) ∧
      (∀ x, cur ≤ x → x < lineEnd → ∃ e ∈ out.evs, e.Covers x) ∧
      (∀ r ∈ out.rest, lineEnd ≤ r.start) ∧
      ∃ taken, inl = taken ++ out.rest ∧ ∀ r, Ev.call r num file ∈ out.evs ↔ r ∈ taken := by
  induction inl with
  | nil =>
    intro cur hc _ _
    unfold evLine
    by_cases h : cur < lineEnd
    · simp only [if_pos h]
      refine ⟨by simp, ⟨by simp, by simpa [Ev.start, Ev.stop] using h⟩, by simp [Ev.start, Ev.stop, Ev.info], ?_, by simp,
        [], by simp, by simp⟩
      intro x h1 h2
      exact ⟨_, List.mem_cons_self, h1, h2⟩
    · simp only [if_neg h]
      refine ⟨by omega, ⟨by simp, by simp⟩, by simp, ?_, by simp, [], by simp, by simp⟩
      intro x h1 h2; omega
  | cons r rest ih =>
    intro cur hc hord hr
    obtain ⟨hrs, hrb⟩ := hr r (by simp)
    have hpos := hord.2 r (by simp)
    have hord' : RangeOrd rest := ⟨(List.pairwise_cons.mp hord.1).2, fun r' h' => hord.2 r' (by simp [h'])⟩
    have hafter := (List.pairwise_cons.mp hord.1).1
    unfold evLine
    by_cases h : cur < lineEnd
    · simp only [if_pos h]
      by_cases hlt : r.start < lineEnd
      · simp only [if_pos hlt]
        have hstop : r.stop ≤ lineEnd := by omega
        obtain ⟨h1, h2, h3, h4, h5, taken, h6, h7⟩ := ih r.stop hstop hord'
          (fun r' h' => ⟨hafter r' h', (hr r' (by simp [h'])).2⟩)
        generalize evLine num file lineEnd rest r.stop = out at *
        have hme : ∀ e ∈ (if r.start > cur then [Ev.self cur (min r.start lineEnd) num file] else []),
            e.start = cur ∧ e.stop = r.start ∧ cur < r.start ∧ e.info = (num, file) ∧ ∀ r', e ≠ .call r' num file := by
          intro e he
          by_cases hs : r.start > cur
          · simp only [if_pos hs, List.mem_singleton] at he
            subst he
            exact ⟨rfl, by rw [Ev.stop_self]; omega, hs, rfl, by simp⟩
          · simp [if_neg hs] at he
        refine ⟨h1, ⟨?_, ?_⟩, ?_, ?_, h5, r :: taken, by simp [h6], ?_⟩
        · rw [List.pairwise_append]
          refine ⟨?_, ?_, ?_⟩
          · by_cases hs : r.start > cur <;> simp [hs]
          · rw [List.pairwise_cons]
            exact ⟨fun e he => (h3 e he).1, h2.1⟩
          · intro e he e' he'
            obtain ⟨a1, a2, _⟩ := hme e he
            rcases List.mem_cons.mp he' with rfl | he'
            · rw [a2]; exact Nat.le_refl _
            · have := (h3 e' he').1; rw [a2]; omega
        · intro e he
          rcases List.mem_append.mp he with he | he
          · obtain ⟨a1, a2, a3, _⟩ := hme e he; omega
          · rcases List.mem_cons.mp he with rfl | he
            · exact hpos
            · exact h2.2 e he
        · intro e he
          rcases List.mem_append.mp he with he | he
          · obtain ⟨a1, a2, a3, a4, _⟩ := hme e he; exact ⟨by omega, by omega, a4⟩
          · rcases List.mem_cons.mp he with rfl | he
            · exact ⟨hrs, hstop, rfl⟩
            · obtain ⟨a1, a2, a3⟩ := h3 e he; exact ⟨by omega, a2, a3⟩
        · intro x hx1 hx2
          by_cases hxr : x < r.start
          · have hs : r.start > cur := by omega
            exact ⟨.self cur (min r.start lineEnd) num file, by simp [hs], hx1, by simp [Ev.stop]; omega⟩
          · by_cases hxs : x < r.stop
            · exact ⟨.call r num file, by simp, by simpa [Ev.start] using hxr, hxs⟩
            · obtain ⟨e, he, hc⟩ := h4 x (by omega) hx2
              exact ⟨e, by simp [he], hc⟩
        · intro r'
          simp only [List.mem_append, List.mem_cons]
          constructor
          · rintro (he | he | he)
            · exact absurd rfl ((hme _ he).2.2.2.2 r')
            · simp at he; exact .inl he
            · exact .inr ((h7 r').mp he)
          · rintro (rfl | he)
            · exact .inr (.inl rfl)
            · exact .inr (.inr ((h7 r').mpr he))
      · simp only [if_neg hlt]
        have hs : r.start > cur := by omega
        simp only [if_pos hs]
        have hmin : min r.start lineEnd = lineEnd := by omega
        rw [hmin]
        refine ⟨by simp, ⟨by simp, by simpa [Ev.start, Ev.stop] using h⟩, by simp [Ev.start, Ev.stop, Ev.info], ?_, ?_,
          [], by simp, by simp⟩
        · intro x h1 h2
          exact ⟨_, List.mem_cons_self, h1, h2⟩
        · intro r' hr'
          rcases List.mem_cons.mp hr' with rfl | hr'
          · omega
          · have := hafter r' hr'; omega
    · simp only [if_neg h]
      refine ⟨by omega, ⟨by simp, by simp⟩, by simp, by intro x h1 h2; omega, ?_, [], by simp, by simp⟩
      intro r' hr'
      have := (hr r' hr').1; omega

theorem endAddr_eq {l : LineInfo} (h : l.stop < M32) : l.endAddr = l.stop := by
  unfold LineInfo.endAddr wadd64 LineInfo.stop at *
  apply Nat.mod_eq_of_lt
  have : M32 < M64 := by decide
  omega

theorem evLines_spec (fid : ByteSlice → FileInfo → Nat) (comp : ByteSlice) (ls : List LineInfo) :
    ∀ (skipTo : Nat) (inl : List IRange64),
      (∀ l ∈ ls, l.address < l.stop ∧ l.stop < M32) → (ls.Pairwise fun l l' => l.stop ≤ l'.address) →
      (∀ l ∈ ls, skipTo ≤ l.address) → RangeOrd inl →
      (∀ r ∈ inl, ∃ l ∈ ls, l.address ≤ r.start ∧ r.stop ≤ l.stop) →
      let evs := evLines fid comp ls skipTo inl
      EvOrd evs ∧
      (∀ e ∈ evs, ∃ l ∈ ls, l.address ≤ e.start ∧ e.stop ≤ l.stop ∧ e.info = (u32 l.line, fid comp l.file)) ∧
      (∀ l ∈ ls, ∀ x, l.Covers x → ∃ e ∈ evs, e.Covers x) ∧
      (∀ r, (∃ n f, Ev.call r n f ∈ evs) ↔ r ∈ inl) := by
  induction ls with
  | nil =>
    intro skipTo inl _ _ _ _ hn
    have : inl = [] := by
      cases inl with
      | nil => rfl
      | cons r _ => obtain ⟨l, hl, _⟩ := hn r (by simp); simp at hl
    subst this
    simp [evLines, EvOrd]
  | cons l ls ih =>
    intro skipTo inl hpos hsort hskip hord hnest
    obtain ⟨hp1, hp2⟩ := hpos l (by simp)
    have hend := endAddr_eq hp2
    obtain ⟨hafter, hsort'⟩ := List.pairwise_cons.mp hsort
    have hsk := hskip l (by simp)
    unfold evLines
    rw [if_neg (by omega), hend]
    have hr : ∀ r ∈ inl, l.address ≤ r.start ∧ (r.stop ≤ l.stop ∨ l.stop ≤ r.start) := by
      intro r hr
      obtain ⟨l', hl', h1, h2⟩ := hnest r hr
      rcases List.mem_cons.mp hl' with rfl | hl'
      · exact ⟨h1, .inl h2⟩
      · have := hafter l' hl'; exact ⟨by omega, .inr (by omega)⟩
    obtain ⟨h1, h2, h3, h4, h5, taken, h6, h7⟩ :=
      evLine_spec (u32 l.line) (fid comp l.file) l.stop inl l.address (by omega) hord hr
    generalize evLine (u32 l.line) (fid comp l.file) l.stop inl l.address = out at *
    have hordR : RangeOrd out.rest := by
      rw [h6] at hord
      exact ⟨(List.pairwise_append.mp hord.1).2.1, fun r hr => hord.2 r (by simp [hr])⟩
    obtain ⟨i1, i2, i3, i4⟩ := ih out.cur out.rest (fun l hl => hpos l (by simp [hl])) hsort'
      (by intro l' hl'; rw [h1]; exact hafter l' hl') hordR (by
        intro r hrr
        obtain ⟨l', hl', a1, a2⟩ := hnest r (by rw [h6]; simp [hrr])
        rcases List.mem_cons.mp hl' with rfl | hl'
        · have := h5 r hrr
          have := hordR.2 r hrr
          omega
        · exact ⟨l', hl', a1, a2⟩)
    refine ⟨⟨?_, ?_⟩, ?_, ?_, ?_⟩
    · rw [List.pairwise_append]
      refine ⟨h2.1, i1.1, ?_⟩
      intro e he e' he'
      obtain ⟨l', hl', a1, _⟩ := i2 e' he'
      have := (h3 e he).2.1
      have := hafter l' hl'
      omega
    · intro e he
      rcases List.mem_append.mp he with he | he
      · exact h2.2 e he
      · exact i1.2 e he
    · intro e he
      rcases List.mem_append.mp he with he | he
      · exact ⟨l, by simp, (h3 e he).1, (h3 e he).2.1, (h3 e he).2.2⟩
      · obtain ⟨l', hl', h⟩ := i2 e he
        exact ⟨l', by simp [hl'], h⟩
    · intro l' hl' x hx
      rcases List.mem_cons.mp hl' with rfl | hl'
      · obtain ⟨e, he, h⟩ := h4 x hx.1 hx.2
        exact ⟨e, by simp [he], h⟩
      · obtain ⟨e, he, h⟩ := i3 l' hl' x hx
        exact ⟨e, by simp [he], h⟩
    · intro r
      rw [h6, List.mem_append]
      constructor
      · rintro ⟨n, f, he⟩
        rcases List.mem_append.mp he with he | he
        · have := (h3 _ he).2.2
          simp only [Ev.info, Prod.mk.injEq] at this
          rw [this.1, this.2] at he
          exact .inl ((h7 r).mp he)
        · exact .inr ((i4 r).mp ⟨n, f, he⟩)
      · rintro (he | he)
        · exact ⟨_, _, List.mem_append.mpr (.inl ((h7 r).mpr he))⟩
        · obtain ⟨n, f, h⟩ := (i4 r).mpr he
          exact ⟨n, f, List.mem_append.mpr (.inr h)⟩

theorem mem_evord {es : List Ev} (h : EvOrd es) {e e' : Ev} (he : e ∈ es) (he' : e' ∈ es) :
    e = e' ∨ e.stop ≤ e'.start ∨ e'.stop ≤ e.start := by
  have h1 := h.1
  clear h
  induction es with
  | nil => simp at he
  | cons x es ih =>
    obtain ⟨a, b⟩ := List.pairwise_cons.mp h1
    rcases List.mem_cons.mp he with h | h
    · rcases List.mem_cons.mp he' with h' | h'
      · exact .inl (h.trans h'.symm)
      · exact .inr (.inl (h ▸ a e' h'))
    · rcases List.mem_cons.mp he' with h' | h'
      · exact .inr (.inr (h' ▸ a e h))
      · exact ih h h' b

/-- Line calls of `emit` are the starts of own-code events, with their line and file. -/
theorem emit_line_mem {depth : Nat} {es : List Ev} : ∀ {prev : Option (Nat × Nat)} {s n f : Nat},
    LOp.line s n f ∈ emit depth es prev → ∃ s0 t, Ev.self s0 t n f ∈ es ∧ s = u32 s0 := by
  induction es with
  | nil => intro prev s n f h; simp [emit] at h
  | cons e es ih =>
    intro prev s n f h
    cases e with
    | self s0 t n' f' =>
      simp only [emit] at h
      split at h
      · rcases List.mem_cons.mp h with h | h
        · simp only [LOp.line.injEq] at h
          obtain ⟨rfl, rfl, rfl⟩ := h
          exact ⟨s0, t, by simp, rfl⟩
        · obtain ⟨s1, t1, h1, h2⟩ := ih h
          exact ⟨s1, t1, by simp [h1], h2⟩
      · obtain ⟨s1, t1, h1, h2⟩ := ih h
        exact ⟨s1, t1, by simp [h1], h2⟩
    | call r n' f' =>
      simp only [emit, List.mem_cons, inlineOp] at h
      rcases h with h | h
      · simp at h
      · obtain ⟨s1, t1, h1, h2⟩ := ih h
        exact ⟨s1, t1, by simp [h1], h2⟩

/-- Inline calls of `emit` are the call events. -/
theorem emit_inl_mem {depth : Nat} {es : List Ev} : ∀ {prev : Option (Nat × Nat)} {site : InlineSite} {q : IRange},
    LOp.inl site q ∈ emit depth es prev ↔ ∃ r n f, Ev.call r n f ∈ es ∧ LOp.inl site q = inlineOp depth n f r := by
  induction es with
  | nil => intro prev s q; simp [emit]
  | cons e es ih =>
    intro prev site q
    cases e with
    | self s0 t n' f' =>
      simp only [emit, List.mem_cons, reduceCtorEq, false_or]
      split
      · simp only [List.mem_cons, reduceCtorEq, false_or]; exact ih
      · exact ih
    | call r n' f' =>
      simp only [emit, List.mem_cons]
      constructor
      · rintro (h | h)
        · exact ⟨r, n', f', .inl rfl, h⟩
        · obtain ⟨r1, n1, f1, h1, h2⟩ := ih.mp h
          exact ⟨r1, n1, f1, .inr h1, h2⟩
      · rintro ⟨r1, n1, f1, h1 | h1, h2⟩
        · simp only [Ev.call.injEq] at h1
          obtain ⟨rfl, rfl, rfl⟩ := h1
          exact .inl h2
        · exact .inr (ih.mpr ⟨r1, n1, f1, h1, h2⟩)

/-- The record that own code ends up under. -/
theorem emit_self_spec {depth : Nat} {es : List Ev} : ∀ {prev : Option (Nat × Nat)}, EvOrd es →
    ∀ {s0 t n f : Nat}, Ev.self s0 t n f ∈ es →
      (∃ s1 t1, s1 ≤ s0 ∧ Ev.self s1 t1 n f ∈ es ∧ LOp.line (u32 s1) n f ∈ emit depth es prev ∧
        ∀ e ∈ es, s1 ≤ e.start → e.start ≤ s0 → ∃ s t, e = .self s t n f) ∨
      (prev = some (n, f) ∧ ∀ e ∈ es, e.start ≤ s0 → ∃ s t, e = .self s t n f) := by
  induction es with
  | nil => intro prev _ s0 t n f h; simp at h
  | cons e es ih =>
    intro prev hord s0 t n f h
    obtain ⟨hafter, h2⟩ := List.pairwise_cons.mp hord.1
    have hord' : EvOrd es := ⟨h2, fun e' he' => hord.2 e' (by simp [he'])⟩
    have hpos := hord.2 e (by simp)
    rcases List.mem_cons.mp h with rfl | hmem
    · -- the event itself
      have honly : ∀ e' ∈ es, ¬ e'.start ≤ s0 := by
        intro e' he'
        have h1 := hafter e' he'
        simp at h1 hpos
        omega
      by_cases hp : prev = some (n, f)
      · refine .inr ⟨hp, ?_⟩
        intro e' he' hle
        rcases List.mem_cons.mp he' with rfl | he'
        · exact ⟨_, _, rfl⟩
        · exact absurd hle (honly e' he')
      · refine .inl ⟨s0, t, Nat.le_refl _, by simp, ?_, ?_⟩
        · simp [emit, hp]
        · intro e' he' _ hle
          rcases List.mem_cons.mp he' with rfl | he'
          · exact ⟨_, _, rfl⟩
          · exact absurd hle (honly e' he')
    · cases e with
      | self s' t' n' f' =>
        have hkeep : ∀ {p}, (∃ s1 t1, s1 ≤ s0 ∧ Ev.self s1 t1 n f ∈ es ∧ LOp.line (u32 s1) n f ∈ emit depth es p ∧
            ∀ e ∈ es, s1 ≤ e.start → e.start ≤ s0 → ∃ s t, e = .self s t n f) →
            emit depth es p <:+ emit depth (.self s' t' n' f' :: es) prev →
            ∃ s1 t1, s1 ≤ s0 ∧ Ev.self s1 t1 n f ∈ Ev.self s' t' n' f' :: es ∧
              LOp.line (u32 s1) n f ∈ emit depth (.self s' t' n' f' :: es) prev ∧
              ∀ e ∈ Ev.self s' t' n' f' :: es, s1 ≤ e.start → e.start ≤ s0 → ∃ s t, e = .self s t n f := by
          rintro p ⟨s1, t1, a1, a2, a3, a4⟩ hsuf
          refine ⟨s1, t1, a1, by simp [a2], hsuf.subset a3, ?_⟩
          intro e' he' hle1 hle2
          rcases List.mem_cons.mp he' with rfl | he'
          · have := hafter _ a2
            simp at this hpos hle1
            omega
          · exact a4 e' he' hle1 hle2
        by_cases hp : prev = some (n', f')
        · have hem : emit depth (.self s' t' n' f' :: es) prev = emit depth es prev := by simp [emit, hp]
          rcases ih (prev := prev) hord' hmem with h1 | ⟨h1, h3⟩
          · exact .inl (hkeep h1 (by rw [hem]; exact List.suffix_refl _))
          · refine .inr ⟨h1, ?_⟩
            intro e' he' hle
            rcases List.mem_cons.mp he' with rfl | he'
            · rw [hp] at h1; simp at h1
              obtain ⟨rfl, rfl⟩ := h1
              exact ⟨_, _, rfl⟩
            · exact h3 e' he' hle
        · have hem : emit depth (.self s' t' n' f' :: es) prev =
              .line (u32 s') n' f' :: emit depth es (some (n', f')) := by simp [emit, hp]
          rcases ih (prev := some (n', f')) hord' hmem with h1 | ⟨h1, h3⟩
          · exact .inl (hkeep h1 (by rw [hem]; exact List.suffix_cons ..))
          · simp at h1
            obtain ⟨rfl, rfl⟩ := h1
            refine .inl ⟨s', t', ?_, by simp, by rw [hem]; simp, ?_⟩
            · have := hafter _ hmem
              simp at this hpos
              omega
            · intro e' he' _ hle
              rcases List.mem_cons.mp he' with rfl | he'
              · exact ⟨_, _, rfl⟩
              · exact h3 e' he' hle
      | call r n' f' =>
        have hem : emit depth (.call r n' f' :: es) prev = inlineOp depth n' f' r :: emit depth es none := rfl
        rcases ih (prev := none) hord' hmem with ⟨s1, t1, a1, a2, a3, a4⟩ | ⟨h1, _⟩
        · refine .inl ⟨s1, t1, a1, by simp [a2], by rw [hem]; simp [a3], ?_⟩
          intro e' he' hle1 hle2
          rcases List.mem_cons.mp he' with rfl | he'
          · have := hafter _ a2
            simp at this hpos hle1
            omega
          · exact a4 e' he' hle1 hle2
        · simp at h1

end DumpSyms
