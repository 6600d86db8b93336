import Verif.Model.Output
import Verif.Proof.Path
/-!
# Proofs about writing
-/
namespace DumpSyms
namespace Output

/-- What is true of a writer while `done` has been handed to it without failure. -/
structure Inv (room cap : Nat) (w : BufWriter) (done : Bytes) : Prop where
  bytes : w.out ++ w.buf = done
  buf : w.buf.length ≤ cap
  out : w.out.length ≤ room

/-- A failed writer: the destination has received a part of the beginning, and the buffer holds some of what follows. -/
structure Failed (room : Nat) (w : BufWriter) (all : Bytes) : Prop where
  bytes : (w.out ++ w.buf) <+: all
  full : w.out.length = room
  short : room < all.length

theorem take_length_le (n : Nat) (l : Bytes) : (l.take n).length = min n l.length := by simp

theorem flushBuf_ok {room cap : Nat} {w : BufWriter} {done : Bytes} (h : Inv room cap w done)
    (hr : (flushBuf room w).1 = true) : (flushBuf room w).2 = { out := done, buf := [] } ∧ done.length ≤ room := by
  simp only [flushBuf, innerWrite, decide_eq_true_eq] at hr ⊢
  have hb := h.bytes
  refine ⟨?_, by rw [← hb, List.length_append]; exact hr⟩
  rw [List.take_of_length_le (by omega), List.drop_eq_nil_of_le (by omega), hb]

theorem flushBuf_fail {room cap : Nat} {w : BufWriter} {done : Bytes} (h : Inv room cap w done)
    (hr : (flushBuf room w).1 = false) : (flushBuf room w).2.out ++ (flushBuf room w).2.buf = done ∧
      (flushBuf room w).2.out.length = room ∧ room < done.length := by
  simp only [flushBuf, innerWrite, decide_eq_false_iff_not] at hr ⊢
  have hb := h.bytes
  have ho := h.out
  refine ⟨by rw [List.append_assoc, List.take_append_drop, hb], ?_, by rw [← hb, List.length_append]; omega⟩
  rw [List.length_append, List.length_take]
  omega

theorem writeAll_spec {room cap : Nat} {w : BufWriter} {done : Bytes} (h : Inv room cap w done) (bytes : Bytes) :
    ((writeAll room cap w bytes).1 = true ∧ Inv room cap (writeAll room cap w bytes).2 (done ++ bytes)) ∨
    ((writeAll room cap w bytes).1 = false ∧ Failed room (writeAll room cap w bytes).2 (done ++ bytes)) := by
  have hbuf := h.buf
  have inner : ∀ w' : BufWriter, w'.out = done → w'.buf = [] → done.length ≤ room →
      ((innerWrite room w' bytes).1 = true ∧ Inv room cap (innerWrite room w' bytes).2 (done ++ bytes)) ∨
      ((innerWrite room w' bytes).1 = false ∧ Failed room (innerWrite room w' bytes).2 (done ++ bytes)) := by
    intro w' e1 e2 hl
    simp only [innerWrite, e1]
    by_cases hfit : done.length + bytes.length ≤ room
    · refine .inl ⟨by simpa using hfit, ?_, ?_, ?_⟩
      · simp only [e2, List.append_nil]
        rw [List.take_of_length_le (by omega)]
      · simp [e2]
      · simp only [List.length_append, List.length_take]
        omega
    · refine .inr ⟨by simpa using hfit, ?_, ?_, ?_⟩
      · simp only [e2, List.append_nil]
        exact List.prefix_append_right_inj _ |>.mpr (List.take_prefix _ _)
      · simp only [List.length_append, List.length_take]
        omega
      · simp only [List.length_append]
        omega
  unfold writeAll
  simp only
  split
  · refine .inl ⟨rfl, by rw [← h.bytes]; simp, ?_, h.out⟩
    simp only [List.length_append]
    omega
  · rename_i hlt
    by_cases hgt : bytes.length > cap - w.buf.length
    · simp only [if_pos hgt]
      cases hr : (flushBuf room w).1 with
      | false =>
        obtain ⟨h1, h2, h3⟩ := flushBuf_fail h hr
        simp only [Bool.not_false, if_true]
        refine .inr ⟨hr, ?_, h2, ?_⟩
        · rw [h1]; exact List.prefix_append _ _
        · rw [List.length_append]; omega
      | true =>
        obtain ⟨h1, h2⟩ := flushBuf_ok h hr
        simp only [Bool.not_true, Bool.false_eq_true, if_false, h1]
        split
        · exact inner _ rfl rfl h2
        · rename_i hc
          refine .inl ⟨rfl, by simp, ?_, h2⟩
          simp only [List.nil_append]
          omega
    · simp only [if_neg hgt, Bool.not_true, Bool.false_eq_true, if_false]
      split
      · have e : w.buf = [] := List.eq_nil_of_length_eq_zero (by omega)
        have e2 : w.out = done := by rw [← h.bytes, e, List.append_nil]
        exact inner w e2 e (by rw [← e2]; exact h.out)
      · refine .inl ⟨rfl, by rw [← h.bytes]; simp, ?_, h.out⟩
        simp only [List.length_append]
        omega

theorem writeChunks_spec {room cap : Nat} (cs : List Bytes) {w : BufWriter} {done : Bytes} (h : Inv room cap w done) :
    ((writeChunks room cap w cs).1 = true ∧ Inv room cap (writeChunks room cap w cs).2 (done ++ cs.flatten)) ∨
    ((writeChunks room cap w cs).1 = false ∧ Failed room (writeChunks room cap w cs).2 (done ++ cs.flatten)) := by
  induction cs generalizing w done with
  | nil => exact .inl ⟨rfl, by simpa [writeChunks] using h⟩
  | cons c cs ih =>
    rw [writeChunks]
    rcases writeAll_spec h c with ⟨h1, h2⟩ | ⟨h1, h2⟩
    · rw [if_pos h1]
      simpa [List.append_assoc] using ih h2
    · rw [if_neg (by simp [h1])]
      refine .inr ⟨h1, ?_, h2.full, ?_⟩
      · have := h2.bytes
        simp only [List.flatten_cons, ← List.append_assoc]
        exact this.trans (List.prefix_append _ _)
      · have := h2.short
        simp only [List.flatten_cons, List.length_append] at this ⊢
        omega

/-- What dumping does: the destination receives the beginning of the text, as much as it has room for; a failure is
reported only if the text does not fit, and success only if at most a buffer's worth of it is missing. -/
theorem dump_spec (room cap : Nat) (cs : List Bytes) :
    (dump room cap cs).2 = cs.flatten.take room ∧
    ((dump room cap cs).1 = false → room < cs.flatten.length) ∧
    ((dump room cap cs).1 = true → cs.flatten.length ≤ room + cap) := by
  have h0 : Inv room cap { out := [], buf := [] } [] := ⟨rfl, by simp, by simp⟩
  rcases writeChunks_spec cs h0 with ⟨h1, h2⟩ | ⟨h1, h2⟩
  · simp only [List.nil_append] at h2
    refine ⟨?_, ?_, fun _ => ?_⟩
    · simp only [dump, flushBuf, innerWrite]
      have hb := h2.bytes
      have ho := h2.out
      rw [← hb, List.take_append, List.take_of_length_le ho]
    · intro h; simp only [dump] at h; rw [h1] at h; cases h
    · have hb := h2.bytes
      have ho := h2.out
      have hc := h2.buf
      rw [← hb, List.length_append]; omega
  · simp only [List.nil_append] at h2
    refine ⟨?_, fun _ => h2.short, ?_⟩
    · simp only [dump, flushBuf, innerWrite]
      have hf := h2.full
      rw [hf, Nat.sub_self, List.take_zero, List.append_nil]
      obtain ⟨t, ht⟩ := h2.bytes
      rw [← ht, List.append_assoc, List.take_append_of_le_length (Nat.le_of_eq hf.symm), List.take_of_length_le (Nat.le_of_eq hf)]
    · intro h; simp only [dump] at h; rw [h1] at h; cases h

/-- Dumping to a destination with enough room. -/
theorem dump_fits {room cap : Nat} {cs : List Bytes} (h : cs.flatten.length ≤ room) :
    dump room cap cs = (true, cs.flatten) := by
  obtain ⟨h1, h2, _⟩ := dump_spec room cap cs
  refine Prod.ext ?_ (by rw [h1, List.take_of_length_le h])
  cases hb : (dump room cap cs).1 with
  | true => rfl
  | false => have := h2 hb; omega

/-! ### The path in the store has a parent -/

theorem splitOn_append_tail (p : Char → Bool) (a b : Str) (hb : ∀ c ∈ b, p c = false) :
    ∃ ws w, splitOn p (a ++ b) = ws ++ [w ++ b] := by
  induction a with
  | nil => exact ⟨[], [], by simpa using splitOn_no_sep p b hb⟩
  | cons c a ih =>
    obtain ⟨ws, w, h⟩ := ih
    rw [List.cons_append, splitOn, h]
    split
    · exact ⟨[] :: ws, w, rfl⟩
    · cases ws with
      | nil => exact ⟨[], c :: w, rfl⟩
      | cons v ws => exact ⟨(c :: v) :: ws, w, rfl⟩

theorem bodyComp_sym (w : Str) : Path.bodyComp (w ++ str% ".sym") = some (.normal (w ++ str% ".sym")) := by
  unfold Path.bodyComp
  have h : 4 ≤ (w ++ str% ".sym").length := by simp
  rw [if_neg, if_neg, if_neg]
  · intro e; rw [e] at h; simp at h
  · intro e; rw [e] at h; simp at h
  · intro e; rw [e] at h; simp at h

theorem components_sym (q : Str) : ∃ s, (Path.components (q ++ str% ".sym")).getLast? = some (.normal s) := by
  obtain ⟨ws, w, h⟩ := splitOn_append_tail isSlash q (str% ".sym") (by decide)
  unfold Path.components
  rw [h]
  cases ws with
  | nil =>
    simp only [List.nil_append, List.filterMap_nil, List.append_nil]
    -- a single piece: the path has no separator
    have hno : ∀ c ∈ q ++ str% ".sym", isSlash c = false := by
      have hm := splitOn_mem_no_sep isSlash (q ++ str% ".sym")
      rw [h] at hm
      have hq : q ++ str% ".sym" = w ++ str% ".sym" := by
        have : ∀ s : Str, (splitOn isSlash s).length = 1 → splitOn isSlash s = [s] := by
          intro s
          induction s with
          | nil => intro _; rfl
          | cons c s ih =>
            rw [splitOn]
            split
            · intro hl
              have := splitOn_ne_nil isSlash s
              cases hs : splitOn isSlash s with
              | nil => exact absurd hs this
              | cons _ _ => rw [hs] at hl; simp at hl
            · cases hs : splitOn isSlash s with
              | nil => exact absurd hs (splitOn_ne_nil isSlash s)
              | cons v vs =>
                intro hl
                simp only [List.length_cons] at hl
                have hvs : vs = [] := List.eq_nil_of_length_eq_zero (by omega)
                have := ih (by rw [hs, hvs]; rfl)
                rw [hs] at this
                simp only [List.cons.injEq] at this
                rw [this.1, this.2]
        have h' := this _ (by rw [h]; rfl)
        rw [h] at h'
        simp only [List.nil_append, List.cons.injEq, and_true] at h'
        exact h'.symm
      rw [hq]
      exact hm _ (by simp)
    have habs : Path.isAbs (q ++ str% ".sym") = false := by
      unfold Path.isAbs
      cases hq : q ++ str% ".sym" with
      | nil => rfl
      | cons c r =>
        have := hno c (by rw [hq]; simp)
        simp only [List.head?_cons]
        unfold isSlash at this
        simpa using this
    rw [habs]
    simp only [Bool.false_eq_true, if_false]
    rw [if_neg, bodyComp_sym]
    · exact ⟨_, rfl⟩
    · intro e
      have : (w ++ str% ".sym").length = 1 := by rw [e]; rfl
      simp at this
  | cons v ws =>
    simp only [List.cons_append, List.filterMap_append, List.filterMap_cons, bodyComp_sym, List.filterMap_nil]
    exact ⟨w ++ str% ".sym", by simp⟩

theorem parent_sym (q : Str) : ∃ d, Path.parent (q ++ str% ".sym") = some d := by
  obtain ⟨s, hs⟩ := components_sym q
  unfold Path.parent
  rw [hs]
  exact ⟨_, rfl⟩

theorem push_suffix {p a s : Str} : ∃ q, Path.push p (a ++ s) = q ++ s := by
  unfold Path.push
  split
  · exact ⟨a, rfl⟩
  · split
    · exact ⟨p ++ a, by simp⟩
    · exact ⟨p ++ '/' :: a, by simp⟩

theorem symFileName_suffix (n : Str) : ∃ a, Utils.symFileName n = a ++ str% ".sym" := by
  unfold Utils.symFileName
  split
  · split
    · exact ⟨_, rfl⟩
    · exact ⟨_, rfl⟩
  · exact ⟨_, rfl⟩

theorem symStorePath_parent {o : ObjectInfo} {dir p : Str} (h : symStorePath o dir = some p) : ∃ d, Path.parent p = some d := by
  unfold symStorePath at h
  split at h
  · cases h
  · cases h
    obtain ⟨a, ha⟩ := symFileName_suffix o.fileName
    unfold Utils.getPathForSym
    rw [ha]
    obtain ⟨q, hq⟩ := @push_suffix (Path.push (Utils.getBase o.fileName) o.debugId) a (str% ".sym")
    rw [hq]
    obtain ⟨q', hq'⟩ := @push_suffix (Path.push [] dir) q (str% ".sym")
    rw [hq']
    exact parent_sym q'

end Output
end DumpSyms
