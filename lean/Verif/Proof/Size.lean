import Verif.Spec.Size
import Verif.Proof.CrashCollect
import Verif.Proof.Line
/-!
# Counting what is collected
-/
namespace DumpSyms

/-- An insertion of a line. -/
def LOp.isLine : LOp → Bool
  | .line _ _ _ => true
  | .inl _ _ => false

/-- An insertion of a range. -/
def LOp.isInl : LOp → Bool
  | .line _ _ _ => false
  | .inl _ _ => true

namespace Size
theorem total_cons (a : Size) (l : List Size) : total (a :: l) = a.add (total l) := rfl
theorem Le.refl (a : Size) : a.Le a := ⟨Nat.le_refl _, Nat.le_refl _, Nat.le_refl _, Nat.le_refl _, Nat.le_refl _, Nat.le_refl _⟩
theorem Le.trans {a b c : Size} (h : a.Le b) (k : b.Le c) : a.Le c :=
  ⟨Nat.le_trans h.1 k.1, Nat.le_trans h.2 k.2, Nat.le_trans h.3 k.3, Nat.le_trans h.4 k.4, Nat.le_trans h.5 k.5, Nat.le_trans h.6 k.6⟩
theorem Le.add {a b c d : Size} (h : a.Le b) (k : c.Le d) : (a.add c).Le (b.add d) :=
  ⟨Nat.add_le_add h.1 k.1, Nat.add_le_add h.2 k.2, Nat.add_le_add h.3 k.3, Nat.add_le_add h.4 k.4, Nat.add_le_add h.5 k.5, Nat.add_le_add h.6 k.6⟩
theorem add_assoc (a b c : Size) : (a.add b).add c = a.add (b.add c) := by simp [Size.add, Nat.add_assoc]
theorem add_comm (a b : Size) : a.add b = b.add a := by simp [Size.add, Nat.add_comm]
theorem add_zero (a : Size) : a.add zero = a := rfl
theorem zero_add (a : Size) : zero.add a = a := by simp [Size.add, zero]
theorem total_append (l k : List Size) : total (l ++ k) = (total l).add (total k) := by
  induction l with
  | nil => rw [List.nil_append]; exact (zero_add _).symm
  | cons a l ih => rw [List.cons_append, total_cons, total_cons, ih, add_assoc]
theorem le_add_right (a b : Size) : a.Le (a.add b) :=
  ⟨Nat.le_add_right _ _, Nat.le_add_right _ _, Nat.le_add_right _ _, Nat.le_add_right _ _, Nat.le_add_right _ _, Nat.le_add_right _ _⟩

theorem ofLines_default : ofLines Lines.default = symbol := rfl
theorem ofLines_new : ofLines Lines.new = symbol := rfl

end Size

namespace SMap
variable {κ β : Type} [StrictOrd κ] [DecidableEq κ]

theorem length_insert_le (m : SMap κ β) (k : κ) (v : β) : (insert m k v).length ≤ m.length + 1 := by
  induction m with
  | nil => simp [insert]
  | cons x xs ih =>
    obtain ⟨k', v'⟩ := x
    unfold insert
    split
    · simp
    · split
      · simp
      · simp only [List.length_cons]; omega

theorem sum_insert_le (m : SMap κ β) (k : κ) (v : β) (w : β → Nat) :
    ((insert m k v).map fun e => w e.2).sum ≤ (m.map fun e => w e.2).sum + w v := by
  induction m with
  | nil => simp [insert]
  | cons x xs ih =>
    obtain ⟨k', v'⟩ := x
    unfold insert
    split
    · simp only [List.map_cons, List.sum_cons]; omega
    · split
      · simp only [List.map_cons, List.sum_cons]; omega
      · simp only [List.map_cons, List.sum_cons]; omega

theorem sum_insert_none {m : SMap κ β} {k : κ} (h : get? m k = none) (v : β) (w : β → Nat) :
    ((insert m k v).map fun e => w e.2).sum = (m.map fun e => w e.2).sum + w v := by
  induction m with
  | nil => simp [insert]
  | cons x xs ih =>
    obtain ⟨k', v'⟩ := x
    rw [get?_cons] at h
    unfold insert
    by_cases hk : k = k'
    · subst hk; rw [if_pos rfl] at h; cases h
    · rw [if_neg hk]
      rw [if_neg (fun h => hk h.symm)] at h
      split
      · simp only [List.map_cons, List.sum_cons]; omega
      · have := ih h
        simp only [List.map_cons, List.sum_cons]; omega

/-- Replacing a value. -/
theorem sum_insert_eq {m : SMap κ β} (hs : Sorted m) {k : κ} {old : β} (h : get? m k = some old) (v : β) (w : β → Nat) :
    ((insert m k v).map fun e => w e.2).sum + w old = (m.map fun e => w e.2).sum + w v := by
  induction m with
  | nil => cases h
  | cons x xs ih =>
    obtain ⟨k', v'⟩ := x
    unfold Sorted at hs
    rw [List.pairwise_cons] at hs
    rw [get?_cons] at h
    unfold insert
    by_cases hk : k = k'
    · subst hk
      rw [if_pos rfl] at h ⊢
      cases h
      simp only [List.map_cons, List.sum_cons]; omega
    · rw [if_neg hk]
      rw [if_neg (fun h => hk h.symm)] at h
      have hm : (k, old) ∈ xs := by
        unfold get? at h
        obtain ⟨e, he, rfl⟩ := Option.map_eq_some_iff.mp h
        have h1 := List.mem_of_find?_eq_some he
        have h2 := List.find?_some he
        simp only [decide_eq_true_eq] at h2
        subst h2
        exact h1
      have hlt := hs.1 _ hm
      rw [if_neg (by rw [lt_asymm hlt]; simp)]
      have := ih hs.2 h
      simp only [List.map_cons, List.sum_cons]; omega

theorem total_insert_le (m : SMap κ β) (k : κ) (v : β) (w : β → Size) :
    (Size.total ((insert m k v).map fun e => w e.2)).Le ((Size.total (m.map fun e => w e.2)).add (w v)) := by
  induction m with
  | nil => simp only [insert, List.map_cons, List.map_nil]; rw [Size.total_cons, Size.add_comm]; exact .refl _
  | cons x xs ih =>
    obtain ⟨k', v'⟩ := x
    unfold insert
    split
    · simp only [List.map_cons, Size.total_cons]
      rw [Size.add_comm, Size.add_comm (w v'), Size.add_assoc]
      refine Size.Le.add (.refl _) ?_
      rw [Size.add_comm]; exact Size.le_add_right _ _
    · split
      · simp only [List.map_cons, Size.total_cons]
        rw [Size.add_comm]; exact .refl _
      · simp only [List.map_cons, Size.total_cons]
        rw [Size.add_assoc]
        exact Size.Le.add (.refl _) ih

/-- Replacing a value by one of the same size. -/
theorem total_insert_eq {m : SMap κ β} (hs : Sorted m) {k : κ} {old : β} (h : get? m k = some old) (v : β) (w : β → Size) (hw : (w v).Le (w old)) :
    (Size.total ((insert m k v).map fun e => w e.2)).Le (Size.total (m.map fun e => w e.2)) := by
  induction m with
  | nil => cases h
  | cons x xs ih =>
    obtain ⟨k', v'⟩ := x
    unfold Sorted at hs
    rw [List.pairwise_cons] at hs
    rw [get?_cons] at h
    unfold insert
    by_cases hk : k = k'
    · subst hk
      rw [if_pos rfl] at h ⊢
      cases h
      simp only [List.map_cons, Size.total_cons]; exact Size.Le.add hw (.refl _)
    · rw [if_neg hk]
      rw [if_neg (fun h => hk h.symm)] at h
      have hm : (k, old) ∈ xs := by
        unfold get? at h
        obtain ⟨e, he, rfl⟩ := Option.map_eq_some_iff.mp h
        have h1 := List.mem_of_find?_eq_some he
        have h2 := List.find?_some he
        simp only [decide_eq_true_eq] at h2
        subst h2
        exact h1
      have hlt := hs.1 _ hm
      rw [if_neg (by rw [lt_asymm hlt]; simp)]
      simp only [List.map_cons, Size.total_cons]; exact Size.Le.add (.refl _) (ih hs.2 h)

end SMap

namespace Lines

theorem joinFrom_length (c : IRange) (l : List IRange) : (joinFrom c l).length ≤ l.length + 1 := by
  fun_induction joinFrom c l <;> simp_all <;> omega

theorem joinRanges_length (l : List IRange) : (joinRanges l).length ≤ l.length := by
  cases l with
  | nil => exact Nat.le_refl _
  | cons a l => exact joinFrom_length a l

theorem run_counts (ops : List LOp) : (run ops).lines.length = ops.countP LOp.isLine ∧ (run ops).inlines.length ≤ ops.countP LOp.isInl ∧
    ((run ops).inlines.map fun e => e.2.length).sum = ops.countP LOp.isInl := by
  induction ops using list_snoc_induction with
  | h0 => exact ⟨rfl, Nat.le_refl _, rfl⟩
  | h1 ops op ih =>
    rw [run_append, List.countP_append, List.countP_append]
    cases op with
    | line r n f =>
      refine ⟨?_, ih.2.1, ih.2.2⟩
      show ((run ops).lines ++ [_]).length = _
      rw [List.length_append, ih.1]; rfl
    | inl s r =>
      refine ⟨ih.1, ?_, ?_⟩
      · exact Nat.le_trans (SMap.length_insert_le _ _ _) (Nat.add_le_add_right ih.2.1 1)
      · show ((SMap.insert (run ops).inlines s (((run ops).inlines.get? s).getD [] ++ [r])).map fun e => e.2.length).sum = _
        cases hg : (run ops).inlines.get? s with
        | some old =>
          have := SMap.sum_insert_eq (run_inlines_sorted ops) hg (old ++ [r]) List.length
          simp only [Option.getD_some]
          simp only [List.length_append, List.length_cons, List.length_nil] at this
          have h3 := ih.2.2
          have h4 : [LOp.inl s r].countP LOp.isInl = 1 := rfl
          omega
        | none =>
          have h1 := SMap.sum_insert_none hg [r] List.length
          simp only [Option.getD_none, List.nil_append]
          have h3 := ih.2.2
          have h4 : [LOp.inl s r].countP LOp.isInl = 1 := rfl
          simp only [List.length_cons, List.length_nil] at h1
          omega

theorem sum_map_le {α : Type} {l : List α} {f g : α → Nat} (h : ∀ a ∈ l, f a ≤ g a) : (l.map f).sum ≤ (l.map g).sum := by
  induction l with
  | nil => exact Nat.le_refl _
  | cons a l ih =>
    simp only [List.map_cons, List.sum_cons]
    exact Nat.add_le_add (h a (by simp)) (ih fun b hb => h b (by simp [hb]))

theorem finalize_size {ops : List LOp} {a b : Nat} {L : Lines} (h : (run ops).finalize a b = .ok L) :
    (Size.ofLines L).Le { Size.zero with
      symbols := 1, lines := ops.countP LOp.isLine, inlines := ops.countP LOp.isInl, ranges := ops.countP LOp.isInl } := by
  rw [finalize_eq] at h
  cases h
  obtain ⟨h1, h2, h3⟩ := run_counts ops
  refine ⟨Nat.le_refl _, Nat.le_refl _, Nat.le_refl _, ?_, ?_, ?_⟩
  · show (setLens a b (run ops).ensureOrder.lines).length ≤ _
    rw [setLens_length, ensureOrder_lines]
    split
    · rw [h1]; exact Nat.le_refl _
    · rw [(isort_perm _ _).length_eq, h1]; exact Nat.le_refl _
  · show (run ops).ensureOrder.inlines.length ≤ _
    rw [ensureOrder_inlines, List.length_map]; exact h2
  · show ((run ops).ensureOrder.inlines.map fun e => e.2.length).sum ≤ _
    rw [ensureOrder_inlines, List.map_map, ← h3]
    refine sum_map_le fun e _ => ?_
    refine Nat.le_trans (joinRanges_length _) ?_
    rw [(isort_perm _ _).length_eq]; exact Nat.le_refl _

end Lines

namespace Collector
open Res

theorem getId_ids {env : SrcEnv} {s s' : SourceFiles} {c : ByteSlice} {f : FileInfo} {id : Nat} (h : s.getId env c f = .ok (id, s')) :
    s'.idToRef = s.idToRef := by
  unfold SourceFiles.getId SourceFiles.getIdOfPath at h
  split at h
  · cases h; rfl
  · split at h
    · cases h; rfl
    · split at h
      · cases h
      · cases h; rfl

theorem getTrueId_ids {s s' : SourceFiles} {i id : Nat} (h : s.getTrueId i = .ok (id, s')) : s'.idToRef.length ≤ s.idToRef.length + 1 := by
  unfold SourceFiles.getTrueId at h
  split at h
  · cases h
  · cases h; omega
  · cases h; simp

theorem linesNoInlines_counts {env : SrcEnv} {comp : ByteSlice} {ls : List LineInfo} {prev : Option (Nat × Nat)} {src src' : SourceFiles}
    {ops : List LOp} (h : linesNoInlines env comp ls prev src = .ok (ops, src')) :
    ops.countP LOp.isLine ≤ ls.length ∧ ops.countP LOp.isInl = 0 ∧ src'.idToRef.length ≤ src.idToRef.length + ls.length := by
  induction ls generalizing prev src ops with
  | nil => cases h; exact ⟨Nat.le_refl _, rfl, Nat.le_refl _⟩
  | cons l ls ih =>
    unfold linesNoInlines at h
    split at h
    · obtain ⟨h1, h2, h3⟩ := ih h
      exact ⟨by simp only [List.length_cons]; omega, h2, by simp only [List.length_cons]; omega⟩
    · obtain ⟨⟨fid, s1⟩, e1, h⟩ := ok_of_bind h
      have e1 := getId_ids e1
      simp only at h
      split at h
      · obtain ⟨⟨tid, s2⟩, e2, h⟩ := ok_of_bind h
        obtain ⟨⟨ops', s3⟩, e3, h⟩ := ok_of_bind h
        cases h
        have e2 := getTrueId_ids e2
        obtain ⟨h1, h2, h3⟩ := ih e3
        rw [e1] at e2
        simp only at h3
        refine ⟨?_, ?_, ?_⟩
        · rw [List.countP_cons_of_pos rfl]; exact Nat.succ_le_succ h1
        · rw [List.countP_cons_of_neg (by simp [LOp.isInl])]; exact h2
        · simp only [List.length_cons]; omega
      · obtain ⟨h1, h2, h3⟩ := ih h
        rw [e1] at h3
        exact ⟨by simp only [List.length_cons]; omega, h2, by simp only [List.length_cons]; omega⟩

theorem selfLine_counts (lineNo fileId cur : Nat) (inl : List IRange64) (prev : Option (Nat × Nat)) :
    (selfLine lineNo fileId cur inl prev).1.countP LOp.isLine ≤ 1 ∧ (selfLine lineNo fileId cur inl prev).1.countP LOp.isInl = 0 := by
  have hp : ∀ b : Bool, ((if b = true then if prev ≠ some (lineNo, fileId) then ([LOp.line (u32 cur) lineNo fileId], some (lineNo, fileId)) else ([], prev)
        else ([], prev)) : List LOp × Option (Nat × Nat)).1.countP LOp.isLine ≤ 1 ∧
      ((if b = true then if prev ≠ some (lineNo, fileId) then ([LOp.line (u32 cur) lineNo fileId], some (lineNo, fileId)) else ([], prev)
        else ([], prev)) : List LOp × Option (Nat × Nat)).1.countP LOp.isInl = 0 := by
    intro b
    cases b with
    | false => exact ⟨Nat.zero_le _, rfl⟩
    | true =>
      by_cases h2 : prev ≠ some (lineNo, fileId)
      · rw [if_pos rfl, if_pos h2]; exact ⟨Nat.le_refl _, rfl⟩
      · rw [if_pos rfl, if_neg h2]; exact ⟨Nat.zero_le _, rfl⟩
  exact hp _

theorem walkLine_counts (depth lineNo fileId lineEnd : Nat) (inl : List IRange64) (cur : Nat) (prev : Option (Nat × Nat)) :
    (walkLine depth lineNo fileId lineEnd inl cur prev).ops.countP LOp.isLine + (walkLine depth lineNo fileId lineEnd inl cur prev).rest.length ≤
      inl.length + 1 ∧
    (walkLine depth lineNo fileId lineEnd inl cur prev).ops.countP LOp.isInl + (walkLine depth lineNo fileId lineEnd inl cur prev).rest.length =
      inl.length := by
  induction inl generalizing cur prev with
  | nil =>
    unfold walkLine
    split
    · have := selfLine_counts lineNo fileId cur [] prev
      exact ⟨this.1, by simpa using this.2⟩
    · exact ⟨Nat.zero_le _, rfl⟩
  | cons r rest ih =>
    unfold walkLine
    have hs := selfLine_counts lineNo fileId cur (r :: rest) prev
    split
    · simp only
      split
      · have := ih r.stop none
        simp only [List.countP_append, List.length_cons]
        rw [List.countP_cons_of_neg (by simp [inlineOp, LOp.isLine]), List.countP_cons_of_pos (by simp [inlineOp, LOp.isInl])]
        omega
      · simp only [List.length_cons]
        omega
    · simp

theorem walkLines_counts {env : SrcEnv} {comp : ByteSlice} {depth : Nat} {ls : List LineInfo} {skipTo : Nat} {inl : List IRange64}
    {prev : Option (Nat × Nat)} {src src' : SourceFiles} {ops : List LOp} (h : walkLines env comp depth ls skipTo inl prev src = .ok (ops, src')) :
    ops.countP LOp.isLine ≤ ls.length + inl.length ∧ ops.countP LOp.isInl ≤ inl.length ∧
      src'.idToRef.length ≤ src.idToRef.length + ls.length := by
  induction ls generalizing skipTo inl prev src ops with
  | nil => cases h; exact ⟨Nat.zero_le _, Nat.zero_le _, Nat.le_refl _⟩
  | cons l ls ih =>
    unfold walkLines at h
    split at h
    · obtain ⟨h1, h2, h3⟩ := ih h
      exact ⟨by simp only [List.length_cons]; omega, h2, by simp only [List.length_cons]; omega⟩
    · obtain ⟨⟨fid, s1⟩, e1, h⟩ := ok_of_bind h
      obtain ⟨⟨tid, s2⟩, e2, h⟩ := ok_of_bind h
      obtain ⟨⟨ops', s3⟩, e3, h⟩ := ok_of_bind h
      cases h
      have e1 := getId_ids e1
      have e2 := getTrueId_ids e2
      rw [e1] at e2
      obtain ⟨h1, h2, h3⟩ := ih e3
      have hw := walkLine_counts depth (u32 l.line) tid l.endAddr inl l.address prev
      simp only [List.countP_append, List.length_cons]
      omega

theorem originId_length (dm : Demangler) (org : InlineOrigins) (n : Name) :
    (InlineOrigins.getId dm org n).2.demangledNames.length ≤ org.demangledNames.length + 1 := by
  unfold InlineOrigins.getId
  split
  · simp
  · simp

mutual
theorem collectRec_counts {env : CEnv} (hus : ∀ l, (env.us l).length = l.length) (f : Func) {depth : Nat} {src src' : SourceFiles}
    {org org' : InlineOrigins} {ops : List LOp} (h : collectRec env depth f src org = .ok (ops, src', org')) :
    ops.countP LOp.isLine ≤ f.lines.length + 2 * f.inlined ∧ ops.countP LOp.isInl ≤ f.inlined ∧
      src'.idToRef.length ≤ src.idToRef.length + f.entries ∧
      org'.demangledNames.length ≤ org.demangledNames.length + f.calls := by
  match f, h with
  | .mk a s n comp lines inlinees, h =>
    unfold collectRec at h
    obtain ⟨⟨ranges, ops1, s1, o1⟩, e1, h⟩ := ok_of_bind h
    obtain ⟨⟨ops2, s2⟩, e2, h⟩ := ok_of_bind h
    cases h
    obtain ⟨h1, h2, h3, h4⟩ := collectInlinees_counts hus inlinees e1
    obtain ⟨k1, k2, k3⟩ := walkLines_counts e2
    rw [hus] at k1 k2
    have ee : (Func.mk a s n comp lines inlinees).entries = lines.length + Func.entriesAll inlinees := by rw [Func.entries]
    have ec : (Func.mk a s n comp lines inlinees).calls = Func.callsAll inlinees := by rw [Func.calls]
    have ei : (Func.mk a s n comp lines inlinees).inlined = Func.entriesAll inlinees := rfl
    have el : (Func.mk a s n comp lines inlinees).lines = lines := rfl
    rw [ee, ec, ei, el, List.countP_append, List.countP_append]
    omega

theorem collectInlinees_counts {env : CEnv} (hus : ∀ l, (env.us l).length = l.length) (fs : List Func) {depth : Nat} {src src' : SourceFiles}
    {org org' : InlineOrigins} {ranges : List IRange64} {ops : List LOp} (h : collectInlinees env depth fs src org = .ok (ranges, ops, src', org')) :
    ops.countP LOp.isLine + ranges.length ≤ 2 * Func.entriesAll fs ∧ ops.countP LOp.isInl + ranges.length ≤ Func.entriesAll fs ∧
      src'.idToRef.length ≤ src.idToRef.length + Func.entriesAll fs ∧
      org'.demangledNames.length ≤ org.demangledNames.length + Func.callsAll fs := by
  match fs, h with
  | [], h => unfold collectInlinees at h; cases h; simp
  | f :: fs, h =>
    rw [Func.entriesAll, Func.callsAll]
    unfold collectInlinees at h
    split at h
    · have := collectInlinees_counts hus fs h
      omega
    · simp only at h
      obtain ⟨⟨ops1, s1, o1⟩, e1, h⟩ := ok_of_bind h
      obtain ⟨⟨rs, ops2, s2, o2⟩, e2, h⟩ := ok_of_bind h
      cases h
      obtain ⟨h1, h2, h3, h4⟩ := collectRec_counts hus f e1
      obtain ⟨k1, k2, k3, k4⟩ := collectInlinees_counts hus fs e2
      have ho := originId_length env.dm org f.name
      have he : f.entries = f.lines.length + f.inlined := by cases f; rw [Func.entries]; rfl
      have hr : (inlineeRanges f (InlineOrigins.getId env.dm org f.name).1).length = f.lines.length := by simp [inlineeRanges]
      simp only at k3 k4 h3 h4
      simp only [List.countP_append, List.length_append]
      rw [hr]
      omega
end

end Collector
end DumpSyms
