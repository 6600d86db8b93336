import Verif.Spec.Checked
import Verif.Proof.Line
import Verif.Proof.Mini
import Verif.Proof.CrashCollect
/-!
# A build with overflow checks does the same or panics
-/
namespace DumpSyms

/-- With checks: a panic, which is excluded if `F`, or the same, with `P` holding of the result. -/
def Res.Same {α : Type} (F : Prop) (P : α → Prop) (c r : Res α) : Prop := (¬ F ∧ c = .panic) ∨ (c = r ∧ ∀ a, r = .ok a → P a)

namespace Res.Same
variable {α β : Type} {F : Prop} {P : α → Prop} {Q : β → Prop}

theorem ok {a : α} (h : P a) : Res.Same F P (.ok a) (.ok a) := .inr ⟨rfl, fun _ e => by cases e; exact h⟩

theorem rfl' {r : Res α} (h : ∀ a, r = .ok a → P a) : Res.Same F P r r := .inr ⟨rfl, h⟩

theorem bind {c r : Res α} {f g : α → Res β} (h : Res.Same F P c r) (hf : ∀ a, P a → Res.Same F Q (f a) (g a)) :
    Res.Same F Q (c >>= f) (r >>= g) := by
  rcases h with ⟨h1, rfl⟩ | ⟨rfl, h2⟩
  · exact .inl ⟨h1, rfl⟩
  · cases c with
    | ok a => exact hf a (h2 a rfl)
    | err m => exact .inr ⟨rfl, fun _ e => by cases e⟩
    | panic => exact .inr ⟨rfl, fun _ e => by cases e⟩

theorem bindOk {c : Res α} {x : α} {f : α → Res β} {s : Res β} (h : Res.Same F P c (.ok x)) (hf : P x → Res.Same F Q (f x) s) :
    Res.Same F Q (c >>= f) s := by
  rcases h with ⟨h1, rfl⟩ | ⟨rfl, h2⟩
  · exact .inl ⟨h1, rfl⟩
  · exact hf (h2 x rfl)

theorem mono {P' : α → Prop} {c r : Res α} (h : Res.Same F P c r) (hp : ∀ a, P a → P' a) : Res.Same F P' c r := by
  rcases h with h | ⟨h1, h2⟩
  · exact .inl h
  · exact .inr ⟨h1, fun a e => hp a (h2 a e)⟩

theorem eq {c r : Res α} (h : Res.Same F P c r) (hF : F) : c = r := by
  rcases h with h | h
  · exact absurd hF h.1
  · exact h.1

theorem or {c r : Res α} (h : Res.Same F P c r) : c = .panic ∨ c = r := by
  rcases h with h | h
  · exact .inl h.2
  · exact .inr h.1

end Res.Same

open Res.Same

theorem cadd_same {F : Prop} {m a b : Nat} (h : F → a + b < m) : Res.Same F (fun x => x = a + b ∧ x < m) (cadd m a b) (.ok ((a + b) % m)) := by
  unfold cadd
  by_cases hl : a + b < m
  · rw [if_pos hl, Nat.mod_eq_of_lt hl]
    exact .ok ⟨rfl, hl⟩
  · exact .inl ⟨fun hF => hl (h hF), if_neg hl⟩

theorem csub_same {F : Prop} {m a b : Nat} (ha : a < m) (h : F → b ≤ a) : Res.Same F (fun x => x = a - b ∧ b ≤ a) (csub a b) (.ok ((a + m - b) % m)) := by
  unfold csub
  by_cases hl : b ≤ a
  · rw [if_pos hl]
    have e : (a + m - b) % m = a - b := by
      have : a + m - b = (a - b) + m := by omega
      rw [this, Nat.add_mod_right, Nat.mod_eq_of_lt (by omega)]
    rw [e]
    exact .ok ⟨rfl, hl⟩
  · exact .inl ⟨fun hF => hl (h hF), if_neg hl⟩

namespace Checked
open Collector

theorem inside_same {F : Prop} {m : Symbols} (h : F → m.Below) (a : Nat) :
    Res.Same F (fun b => b = m.isInsideSymbol a) (isInsideSymbol m a) (.ok (m.isInsideSymbol a)) := by
  unfold isInsideSymbol Symbols.isInsideSymbol
  cases hl : m.lastBelow a with
  | none => exact .ok rfl
  | some e =>
    obtain ⟨k, s⟩ := e
    simp only
    have hm : (k, s) ∈ m := by
      unfold Symbols.lastBelow at hl
      exact (List.mem_filter.mp (List.mem_of_getLast? hl)).1
    have hc := cadd_same (F := F) (m := M32) (a := s.rva) (b := s.len) (fun hF => h hF _ hm)
    exact hc.bindOk fun _ => .ok rfl

theorem joinFrom_same {F : Prop} (c : IRange) (l : List IRange) (h : F → ∀ r ∈ c :: l, r.rva + r.len < M32) :
    Res.Same F (fun _ => True) (joinFrom c l) (.ok (Lines.joinFrom c l)) := by
  induction l generalizing c with
  | nil => exact .ok trivial
  | cons n l ih =>
    unfold joinFrom Lines.joinFrom
    split
    · rename_i hadj
      have he := (Lines.checkedAdd_eq_some hadj).1
      have hc := cadd_same (F := F) (m := M32) (a := c.len) (b := n.len) (fun hF => by
        have := h hF n (by simp); omega)
      refine hc.bindOk fun hx => ?_
      refine ih _ fun hF r hr => ?_
      rcases List.mem_cons.mp hr with rfl | hr
      · have := h hF n (by simp)
        show c.rva + (c.len + n.len) % M32 < M32
        omega
      · exact h hF r (by simp [hr])
    · exact (ih n fun hF r hr => h hF r (by simp [List.mem_cons.mp hr])).bindOk fun _ => .ok trivial

theorem joinRanges_same {F : Prop} (l : List IRange) (h : F → ∀ r ∈ l, r.rva + r.len < M32) :
    Res.Same F (fun _ => True) (joinRanges l) (.ok (Lines.joinRanges l)) := by
  cases l with
  | nil => exact .ok trivial
  | cons c l => exact joinFrom_same c l h

theorem joinAll_same {F : Prop} (l : List (InlineSite × List IRange)) (h : F → ∀ e ∈ l, ∀ r ∈ e.2, r.rva + r.len < M32) :
    Res.Same F (fun _ => True) (joinAll l)
      (.ok (l.map fun e => (e.1, Lines.joinRanges (isort (fun a b => decide (a.rva ≤ b.rva)) e.2)))) := by
  induction l with
  | nil => exact .ok trivial
  | cons e l ih =>
    obtain ⟨s, rs⟩ := e
    refine (joinRanges_same _ fun hF r hr => h hF (s, rs) (by simp) r ((isort_perm _ _).mem_iff.mp hr)).bindOk fun _ => ?_
    exact (ih fun hF e he => h hF e (by simp [he])).bindOk fun _ => .ok trivial

theorem setLens_eq (a b : Nat) (l : List Line) (hs : l.Pairwise fun x y => x.rva ≤ y.rva) (hb : ∀ x ∈ l, x.rva < M32) :
    setLens a b l = .ok (Lines.setLens a b l) := by
  fun_induction setLens a b l with
  | case1 => rfl
  | case2 last e he hlt =>
    have := csub_same (F := True) (m := M32) (a := e) (b := last.rva) (Lines.checkedAdd_eq_some he).2 (fun _ => by omega)
    rw [this.eq trivial, Lines.setLens, he]
    simp only [Res.bind_ok]
    rw [if_pos hlt]; rfl
  | case3 last e he hlt => rw [Lines.setLens, he]; simp only; rw [if_neg hlt]
  | case4 last he => rw [Lines.setLens, he]
  | case5 x y rest ih =>
    rw [List.pairwise_cons] at hs
    have := csub_same (F := True) (m := M32) (a := y.rva) (b := x.rva) (hb y (by simp)) (fun _ => hs.1 y (by simp))
    rw [this.eq trivial, ih hs.2 (fun z hz => hb z (by simp [hz]))]
    rfl

/-- What is recorded is a 32-bit address, and a range that ends below 2^32 if everything fits. -/
def OpOk (F : Prop) : LOp → Prop
  | .line rva _ _ => rva < M32
  | .inl _ r => F → r.rva + r.len < M32

theorem finalize_same {F : Prop} (ops : List LOp) (h : ∀ op ∈ ops, OpOk F op) (a b : Nat) :
    Res.Same F (fun _ => True) (finalize (Lines.run ops) a b) ((Lines.run ops).finalize a b) := by
  have hl : ∀ l ∈ (Lines.run ops).lines, l.rva < M32 := by
    intro l hl
    rw [Lines.run_lines] at hl
    obtain ⟨t, ht, rfl⟩ := List.mem_map.mp hl
    obtain ⟨op, ho, e⟩ := List.mem_filterMap.mp ht
    cases op with
    | line r n f => cases e; exact h _ ho
    | inl s r => cases e
  have hi : F → ∀ e ∈ (Lines.run ops).inlines, ∀ r ∈ e.2, r.rva + r.len < M32 := by
    intro hF e he r hr
    have hg := SMap.get?_of_mem (Lines.run_inlines_sorted ops) he
    rw [Lines.run_inlines_get] at hg
    split at hg
    · cases hg
    · rw [← Option.some.inj hg] at hr
      obtain ⟨op, ho, e⟩ := List.mem_filterMap.mp hr
      cases op with
      | line r n f => cases e
      | inl s r =>
        simp only at e
        split at e
        · cases e; exact h _ ho hF
        · cases e
  have ho : Res.Same F (fun _ => True) (ensureOrder (Lines.run ops)) (.ok (Lines.run ops).ensureOrder) := by
    unfold ensureOrder Lines.ensureOrder
    cases hs : (Lines.run ops).areSorted with
    | true => exact (joinAll_same _ hi).bindOk fun _ => .ok trivial
    | false => exact (joinAll_same _ hi).bindOk fun _ => .ok trivial
  refine ho.bindOk fun _ => ?_
  unfold computeLen Lines.finalize Lines.computeLen
  rw [setLens_eq]
  · exact .rfl' fun _ _ => trivial
  · rw [Lines.ensureOrder_run_lines]; exact Lines.isort_rva_sorted _
  · intro x hx
    rw [Lines.ensureOrder_run_lines] at hx
    exact hl x ((isort_perm _ _).mem_iff.mp hx)

/-- A range whose end did not wrap, and lies below 2^32 if everything fits. -/
def RangeOk (F : Prop) (r : IRange64) : Prop := r.start ≤ r.stop ∧ r.stop < M64 ∧ (F → r.stop < M32)

theorem endAddr_same {F : Prop} {l : LineInfo} (h : F → l.address + l.size.getD 1 < M32) :
    Res.Same F (fun e => l.address ≤ e ∧ e < M64 ∧ (F → e < M32)) (endAddr l) (.ok l.endAddr) := by
  refine (cadd_same (F := F) (m := M64) fun hF => ?_).mono ?_
  · have := h hF; simp only [M32] at this; simp only [M64]; omega
  · rintro x ⟨rfl, hx⟩
    exact ⟨by omega, hx, h⟩

theorem inlineOp_same {F : Prop} (depth lineNo fileId : Nat) {r : IRange64} (h : RangeOk F r) :
    Res.Same F (OpOk F) (inlineOp depth lineNo fileId r) (.ok (Collector.inlineOp depth lineNo fileId r)) := by
  refine (csub_same (F := F) (m := M64) h.2.1 fun _ => h.1).bindOk fun hx => .ok ?_
  intro hF
  have h3 := h.2.2 hF
  have h1 := h.1
  show r.start % M32 + ((r.stop + M64 - r.start) % M64) % M32 < M32
  rw [hx.1, Nat.mod_eq_of_lt (by omega : r.start < M32), Nat.mod_eq_of_lt (by omega : r.stop - r.start < M32)]
  omega

theorem selfLine_ok {F : Prop} (lineNo fileId cur : Nat) (inl : List IRange64) (prev : Option (Nat × Nat)) :
    ∀ op ∈ (selfLine lineNo fileId cur inl prev).1, OpOk F op := by
  have hp : ∀ b : Bool, ∀ op ∈ ((if b = true then if prev ≠ some (lineNo, fileId) then ([LOp.line (u32 cur) lineNo fileId], some (lineNo, fileId))
      else ([], prev) else ([], prev)) : List LOp × Option (Nat × Nat)).1, OpOk F op := by
    intro b op
    cases b with
    | false => simp
    | true =>
      by_cases h2 : prev ≠ some (lineNo, fileId)
      · rw [if_pos rfl, if_pos h2]
        intro h
        simp only [List.mem_cons, List.not_mem_nil, or_false] at h
        subst h
        exact u32_lt cur
      · rw [if_pos rfl, if_neg h2]; simp
  exact hp _

theorem walkLine_same {F : Prop} (depth lineNo fileId lineEnd : Nat) (inl : List IRange64) (h : ∀ r ∈ inl, RangeOk F r) (cur : Nat)
    (prev : Option (Nat × Nat)) :
    Res.Same F (fun o => (∀ op ∈ o.ops, OpOk F op) ∧ ∀ r ∈ o.rest, RangeOk F r) (walkLine depth lineNo fileId lineEnd inl cur prev)
      (.ok (Collector.walkLine depth lineNo fileId lineEnd inl cur prev)) := by
  induction inl generalizing cur prev with
  | nil =>
    unfold walkLine Collector.walkLine
    split
    · have hs := selfLine_ok (F := F) lineNo fileId cur [] prev
      exact .ok ⟨hs, by simp⟩
    · exact .ok ⟨by simp, by simp⟩
  | cons r rest ih =>
    unfold walkLine Collector.walkLine
    have hs := selfLine_ok (F := F) lineNo fileId cur (r :: rest) prev
    split
    · simp only
      split
      · refine (inlineOp_same depth lineNo fileId (h r (by simp))).bindOk fun hop => ?_
        refine (ih (fun x hx => h x (by simp [hx])) r.stop none).bindOk fun hout => .ok ⟨?_, hout.2⟩
        intro op hm
        rcases List.mem_append.mp hm with hm | hm
        · exact hs op hm
        · rcases List.mem_cons.mp hm with rfl | hm
          · exact hop
          · exact hout.1 op hm
      · exact .ok ⟨hs, h⟩
    · exact .ok ⟨by simp, h⟩

theorem walkLines_same {F : Prop} (env : SrcEnv) (comp : ByteSlice) (depth : Nat) (ls : List LineInfo)
    (hl : F → ∀ l ∈ ls, l.address + l.size.getD 1 < M32) (skipTo : Nat) (inl : List IRange64) (h : ∀ r ∈ inl, RangeOk F r)
    (prev : Option (Nat × Nat)) (src : SourceFiles) :
    Res.Same F (fun x => ∀ op ∈ x.1, OpOk F op) (walkLines env comp depth ls skipTo inl prev src)
      (Collector.walkLines env comp depth ls skipTo inl prev src) := by
  induction ls generalizing skipTo inl prev src with
  | nil => exact .ok (by simp)
  | cons l ls ih =>
    have hl' : F → ∀ l ∈ ls, l.address + l.size.getD 1 < M32 := fun hF x hx => hl hF x (by simp [hx])
    unfold walkLines Collector.walkLines
    split
    · exact ih hl' skipTo inl h prev src
    · refine (endAddr_same (F := F) (l := l) fun hF => hl hF l (by simp)).bindOk fun _ => ?_
      refine (Res.Same.rfl' (P := fun _ => True) fun _ _ => trivial).bind fun x _ => ?_
      refine (Res.Same.rfl' (P := fun _ => True) fun _ _ => trivial).bind fun y _ => ?_
      refine (walkLine_same depth (u32 l.line) y.1 l.endAddr inl h l.address prev).bindOk fun ho => ?_
      refine (ih hl' _ _ ho.2 _ _).bind fun z hz => .ok ?_
      intro op hm
      rcases List.mem_append.mp hm with hm | hm
      · exact ho.1 op hm
      · exact hz op hm

theorem inlineeRanges_same {F : Prop} (origin : Nat) (ls : List LineInfo) (hl : F → ∀ l ∈ ls, l.address + l.size.getD 1 < M32) :
    Res.Same F (fun x => ∀ r ∈ x, RangeOk F r) (inlineeRanges origin ls)
      (.ok (ls.map fun l => ({ start := l.address, stop := l.endAddr, origin } : IRange64))) := by
  induction ls with
  | nil => exact .ok (by simp)
  | cons l ls ih =>
    refine (endAddr_same (F := F) (l := l) fun hF => hl hF l (by simp)).bindOk fun he => ?_
    refine (ih fun hF x hx => hl hF x (by simp [hx])).bindOk fun hr => .ok ?_
    intro r hm
    rcases List.mem_cons.mp hm with rfl | hm
    · exact he
    · exact hr r hm

mutual
theorem collectRec_same {F : Prop} {env : CEnv} (hus : ∀ l r, r ∈ env.us l → r ∈ l) (f : Func) (hf : F → f.LinesBelow) (depth : Nat)
    (src : SourceFiles) (org : InlineOrigins) :
    Res.Same F (fun x => ∀ op ∈ x.1, OpOk F op) (collectRec env depth f src org) (Collector.collectRec env depth f src org) := by
  match f, hf with
  | .mk a s n comp lines inlinees, hf =>
    unfold collectRec Collector.collectRec
    refine (collectInlinees_same hus inlinees (fun hF g hg => ?_) depth src org).bind fun x hx => ?_
    · cases hf hF with
      | mk _ _ _ _ _ _ h hi => exact hi g hg
    · refine (walkLines_same env.src comp depth lines (fun hF => ?_) 0 (env.us x.1) (fun r hr => hx.1 r (hus _ _ hr)) none x.2.2.1).bind
        fun y hy => .ok ?_
      · cases hf hF with
        | mk _ _ _ _ _ _ h hi => exact h
      · intro op hm
        rcases List.mem_append.mp hm with hm | hm
        · exact hx.2 op hm
        · exact hy op hm

theorem collectInlinees_same {F : Prop} {env : CEnv} (hus : ∀ l r, r ∈ env.us l → r ∈ l) (fs : List Func) (hf : F → ∀ f ∈ fs, f.LinesBelow)
    (depth : Nat) (src : SourceFiles) (org : InlineOrigins) :
    Res.Same F (fun x => (∀ r ∈ x.1, RangeOk F r) ∧ ∀ op ∈ x.2.1, OpOk F op) (collectInlinees env depth fs src org)
      (Collector.collectInlinees env depth fs src org) := by
  match fs, hf with
  | [], _ => unfold collectInlinees Collector.collectInlinees; exact .ok ⟨by simp, by simp⟩
  | f :: fs, hf =>
    unfold collectInlinees Collector.collectInlinees
    have hf' : F → ∀ f ∈ fs, f.LinesBelow := fun hF g hg => hf hF g (by simp [hg])
    split
    · exact collectInlinees_same hus fs hf' depth src org
    · refine (inlineeRanges_same _ f.lines fun hF => ?_).bindOk fun hr => ?_
      · cases hf hF f (by simp) with
        | mk _ _ _ _ _ _ h hi => exact h
      · refine (collectRec_same hus f (fun hF => hf hF f (by simp)) (depth + 1) src _).bind fun x hx => ?_
        refine (collectInlinees_same hus fs hf' depth x.2.1 x.2.2).bind fun y hy => .ok ⟨?_, ?_⟩
        · intro r hm
          rcases List.mem_append.mp hm with hm | hm
          · exact hr r hm
          · exact hy.1 r hm
        · intro op hm
          rcases List.mem_append.mp hm with hm | hm
          · exact hx op hm
          · exact hy.2 op hm
end

theorem linesNoInlines_ok {F : Prop} {env : SrcEnv} {comp : ByteSlice} {ls : List LineInfo} {prev : Option (Nat × Nat)} {src src' : SourceFiles}
    {ops : List LOp} (h : linesNoInlines env comp ls prev src = .ok (ops, src')) : ∀ op ∈ ops, OpOk F op := by
  induction ls generalizing prev src ops with
  | nil => cases h; simp
  | cons l ls ih =>
    unfold linesNoInlines at h
    split at h
    · exact ih h
    · obtain ⟨⟨fid, s1⟩, e1, h⟩ := Res.ok_of_bind h
      simp only at h
      split at h
      · obtain ⟨⟨tid, s2⟩, e2, h⟩ := Res.ok_of_bind h
        obtain ⟨⟨ops', s3⟩, e3, h⟩ := Res.ok_of_bind h
        cases h
        intro op hm
        rcases List.mem_cons.mp hm with rfl | hm
        · exact u32_lt _
        · exact ih e3 op hm
      · exact ih h

theorem functionOps_same {F : Prop} {env : CEnv} (hus : ∀ l r, r ∈ env.us l → r ∈ l) (inlines : Bool) (f : Func) (hf : F → f.LinesBelow)
    (src : SourceFiles) (org : InlineOrigins) :
    Res.Same F (fun x => ∀ op ∈ x.1, OpOk F op) (functionOps env inlines f src org) (Collector.functionOps env inlines f src org) := by
  unfold functionOps Collector.functionOps
  split
  · exact collectRec_same hus f hf 0 src org
  · refine .rfl' fun a h => ?_
    obtain ⟨⟨ops, s⟩, e, h⟩ := Res.ok_of_bind h
    cases h
    exact linesNoInlines_ok e

/-- Every symbol ends below 2^32, counting an empty one as one byte. -/
def Wide (m : Symbols) : Prop := ∀ e ∈ m, e.2.rva + max e.2.len 1 < M32

theorem Wide.below {m : Symbols} (h : Wide m) : m.Below := fun e he => by have := h e he; omega

theorem Wide.insert {m : Symbols} (h : Wide m) {a : Nat} {s : Symbol} (hs : s.rva + max s.len 1 < M32) : Wide (m.insert a s) := by
  intro e he
  rcases SMap.mem_insert he with rfl | he
  · exact hs
  · exact h e he

theorem Wide.replace {m : Symbols} (h : Wide m) {a : Nat} {old s : Symbol} (ho : m.get? a = some old) (h1 : s.rva = old.rva) (h2 : s.len = old.len) :
    Wide (m.insert a s) := h.insert (by rw [h1, h2]; exact h _ (SMap.mem_of_get? ho))

theorem Wide.orInsert {m : Symbols} (h : Wide m) {a : Nat} {s : Symbol} (hs : s.rva + max s.len 1 < M32) : Wide (m.orInsert a s) := by
  unfold Symbols.orInsert
  split
  · exact h
  · exact h.insert hs

theorem u32_wide {a s : Nat} (h : a + max s 1 < M32) : u32 a + max (u32 s) 1 < M32 := by
  rw [u32_of_lt (by omega), u32_of_lt (by omega)]; exact h

theorem existingFunc_get {m : Symbols} {a : Nat} {s : Symbol} (h : existingFunc m a = some s) : m.get? a = some s := by
  unfold existingFunc at h
  split at h
  · split at h
    · cases h
    · rename_i hg _; cases h; exact hg
  · cases h

theorem collectFunction_same {F : Prop} {env : CEnv} (hus : ∀ l r, r ∈ env.us l → r ∈ l) (inlines : Bool) (f : Func)
    (hf : F → f.address + max f.size 1 < M32 ∧ f.LinesBelow) (st : State) (hst : F → Wide st.syms) :
    Res.Same F (fun st => F → Wide st.syms) (collectFunction env inlines f st) (Collector.collectFunction env inlines f st) := by
  unfold collectFunction Collector.collectFunction
  split
  · exact .ok hst
  · cases hs : existingFunc st.syms (u32 f.address) with
    | some s => exact .ok fun hF => (hst hF).replace (existingFunc_get hs) rfl rfl
    | none =>
      refine (functionOps_same hus inlines f (fun hF => (hf hF).2) st.src st.org).bind fun x hx => ?_
      refine (finalize_same x.1 hx (u32 f.address) (u32 f.size)).bind fun L _ => .ok fun hF => (hst hF).insert ?_
      exact u32_wide (hf hF).1

theorem collectFunctions_same {F : Prop} {env : CEnv} (hus : ∀ l r, r ∈ env.us l → r ∈ l) (inlines : Bool) (fs : List (Option Func))
    (hf : F → ∀ f, some f ∈ fs → f.address + max f.size 1 < M32 ∧ f.LinesBelow) (st : State) (hst : F → Wide st.syms) :
    Res.Same F (fun st => F → Wide st.syms) (collectFunctions env inlines fs st) (Collector.collectFunctions env inlines fs st) := by
  induction fs generalizing st with
  | nil => exact .ok hst
  | cons f fs ih =>
    have hf' : F → ∀ f, some f ∈ fs → f.address + max f.size 1 < M32 ∧ f.LinesBelow := fun hF g hg => hf hF g (by simp [hg])
    cases f with
    | none => exact ih hf' st hst
    | some f =>
      exact (collectFunction_same hus inlines f (fun hF => hf hF f (by simp)) st hst).bind fun st' h => ih hf' st' h

theorem publicOccupied_place (env : CEnv) (w : Option WinName) (s : Symbol) :
    (publicOccupied env w s).rva = s.rva ∧ (publicOccupied env w s).len = s.len := by
  unfold publicOccupied
  split
  · exact ⟨rfl, rfl⟩
  · cases w with
    | none => exact ⟨rfl, rfl⟩
    | some w =>
      simp only
      cases w.paramSize <;> simp only <;> split <;> exact ⟨rfl, rfl⟩

theorem collectPublic_same {F : Prop} (env : CEnv) (pl : Platform) (p : Public) (hp : F → p.address + max p.size 1 < M32) (m : Symbols)
    (hm : F → Wide m) : Res.Same F (fun m => F → Wide m) (collectPublic env pl p m) (Collector.collectPublic env pl p m) := by
  unfold collectPublic Collector.collectPublic
  refine (inside_same (fun hF => (hm hF).below) _).bindOk fun _ => ?_
  split
  · exact .ok hm
  · split
    · exact .ok hm
    · refine (Res.Same.rfl' (P := fun _ => True) fun _ _ => trivial).bind fun w _ => .ok fun hF => ?_
      unfold putPublic
      split
      · rename_i old ho
        exact (hm hF).replace ho (publicOccupied_place env w old).1 (publicOccupied_place env w old).2
      · exact (hm hF).insert (u32_wide (hp hF))

theorem collectPublics_same {F : Prop} (env : CEnv) (pl : Platform) (ps : List Public) (hp : F → ∀ p ∈ ps, p.address + max p.size 1 < M32)
    (m : Symbols) (hm : F → Wide m) : Res.Same F (fun m => F → Wide m) (collectPublics env pl ps m) (Collector.collectPublics env pl ps m) := by
  induction ps generalizing m with
  | nil => exact .ok hm
  | cons p ps ih =>
    exact (collectPublic_same env pl p (fun hF => hp hF p (by simp)) m hm).bind fun m' h =>
      ih (fun hF q hq => hp hF q (by simp [hq])) m' h

theorem collectPlaceholders_same {F : Prop} (name : Str) (es : List ExcEntry) (he : F → ∀ e ∈ es, e.begin + 1 < M32 ∧ e.stop < M32)
    (m : Symbols) (hm : F → Wide m) :
    Res.Same F (fun m => F → Wide m) (collectPlaceholders name es m) (.ok (Collector.collectPlaceholders name es m)) := by
  induction es generalizing m with
  | nil => exact .ok hm
  | cons e es ih =>
    have h1 : Res.Same F (fun m => F → Wide m) (collectPlaceholder name e m) (.ok (Collector.collectPlaceholder name e m)) := by
      unfold collectPlaceholder Collector.collectPlaceholder
      cases hd : checkedSub e.stop e.begin with
      | none => exact .ok hm
      | some d =>
        refine (inside_same (fun hF => (hm hF).below) _).bindOk fun _ => ?_
        by_cases hin : m.isInsideSymbol e.begin = true
        · simp only [hin, if_true]; exact .ok hm
        · simp only [hin]
          refine .ok fun hF => (hm hF).orInsert ?_
          have := he hF e (by simp)
          unfold checkedSub at hd
          split at hd
          · cases hd
            show e.begin + max (e.stop - e.begin) 1 < M32
            omega
          · cases hd
    exact h1.bindOk fun h => ih (fun hF q hq => he hF q (by simp [hq])) _ h

theorem withPlaceholders_same {F : Prop} (main : ObjInput) (name : Str) (peName : Option Str)
    (he : F → ∀ es, main.exceptions = some es → ∀ e ∈ es, e.begin + 1 < M32 ∧ e.stop < M32) (m : Symbols) (hm : F → Wide m) :
    Res.Same F (fun m => F → Wide m) (withPlaceholders main name peName m) (.ok (ObjectInfo.withPlaceholders main name peName m)) := by
  unfold withPlaceholders ObjectInfo.withPlaceholders
  split
  · cases h : main.exceptions with
    | some es => exact collectPlaceholders_same _ es (fun hF => he hF es h) m hm
    | none => exact .ok hm
  · exact .ok hm

theorem miniPublics_embeds {main : ObjInput} {ps : List Public} (h : ObjectInfo.miniPublics main = .ok (some ps)) : main.Embeds ps := by
  have hin : main.EmbeddedInside := by
    intro x hx
    rcases miniPublics_cases main with ⟨h1, _⟩ | ⟨y, hy, e⟩
    · exact absurd hx (h1 x)
    · cases embeddedIn_unique hx hy
      rw [h] at e
      by_cases hle : x.offset + x.size ≤ main.data.length
      · exact hle
      · rw [if_neg hle] at e; cases e
  exact (embeds_iff hin ps).mpr ⟨_, h, rfl⟩

theorem withMini_same {F : Prop} (env : CEnv) (pl : Platform) (main : ObjInput)
    (hp : F → ∀ ps, main.Embeds ps → ∀ p ∈ ps, p.address + max p.size 1 < M32) (m : Symbols) (hm : F → Wide m) :
    Res.Same F (fun m => F → Wide m) (withMini env pl main m) (ObjectInfo.withMini env pl main m) := by
  unfold withMini ObjectInfo.withMini
  refine (Res.Same.rfl' (P := fun x => ∀ ps, x = some ps → main.Embeds ps) fun x h ps e => by subst e; exact miniPublics_embeds h).bind fun x hx => ?_
  cases x with
  | none => exact .ok hm
  | some ps => exact collectPublics_same env pl ps (fun hF => hp hF ps (hx ps rfl)) m hm

theorem below_orInsert {m : Symbols} (h : m.Below) {a : Nat} {s : Symbol} (hs : s.rva + s.len < M32) : (m.orInsert a s).Below := by
  unfold Symbols.orInsert
  split
  · exact h
  · intro e he
    rcases SMap.mem_insert he with rfl | he
    · exact hs
    · exact h e he

theorem addSections_below (name : Str) (l : List Section) (m : Symbols) (h : m.Below) : (Symbols.addSections name l m).Below := by
  induction l generalizing m with
  | nil => exact h
  | cons x l ih =>
    refine ih _ ?_
    split
    · exact below_orInsert h (by show u32 x.addr + 0 < M32; exact u32_lt _)
    · exact h

theorem appendDummy_same {F : Prop} (name : Str) (m : Symbols) (hm : F → Wide m) :
    Res.Same F (fun m => F → m.Below) (appendDummy m name) (.ok (Symbols.appendDummy m name)) := by
  unfold appendDummy Symbols.appendDummy
  cases hl : m.getLast? with
  | none => exact .ok fun hF => (hm hF).below
  | some e =>
    obtain ⟨k, s⟩ := e
    have hs : F → s.rva + max s.len 1 < M32 := fun hF => hm hF _ (List.mem_of_getLast? hl)
    simp only
    by_cases h0 : s.len = 0
    · simp only [if_pos h0]
      refine (cadd_same (F := F) (m := M32) fun hF => by have := hs hF; omega).bindOk fun hx => .ok fun hF => below_orInsert (hm hF).below ?_
      exact hx.2
    · simp only [if_neg h0]
      refine (cadd_same (F := F) (m := M32) fun hF => by have := hs hF; omega).bindOk fun hx => .ok fun hF => below_orInsert (hm hF).below ?_
      exact hx.2

theorem addExecutable_same {F : Prop} (name : Str) (k : ObjKind) (m : Symbols) (hm : F → Wide m) :
    Res.Same F (fun m => F → m.Below) (addExecutableSectionSymbols m name k) (.ok (m.addExecutableSectionSymbols name k)) := by
  cases k with
  | elf l => exact .ok fun hF => addSections_below name l m (hm hF).below
  | pe => exact appendDummy_same name m hm
  | pdb => exact appendDummy_same name m hm
  | other => exact .ok fun hF => (hm hF).below

theorem collect_same {F : Prop} {env : CEnv} (hus : ∀ l r, r ∈ env.us l → r ∈ l) (inlines : Bool) (pl : Platform) (main : ObjInput) (name : Str)
    (peName : Option Str) (fs : List (Option Func)) (hF : F → main.Fits fs) :
    Res.Same F (fun st => F → st.syms.Below) (collect env inlines pl main name peName fs)
      (ObjectInfo.collect env inlines pl main name peName fs) := by
  unfold collect ObjectInfo.collect
  refine (collectFunctions_same hus inlines fs (fun h => (hF h).funcs) State.new (fun _ e he => by cases he)).bind fun st hst => ?_
  refine (withPlaceholders_same main name peName (fun h => (hF h).exceptions) st.syms hst).bindOk fun h1 => ?_
  refine (collectPublics_same env pl main.publics (fun h => (hF h).publics _ (.inl rfl)) _ h1).bind fun m2 h2 => ?_
  refine (withMini_same env pl main (fun h ps hp => (hF h).publics ps (.inr hp)) m2 h2).bind fun m3 h3 => ?_
  exact (addExecutable_same name main.kind m3 h3).bindOk fun h4 => .ok h4

theorem fromObject_same {F : Prop} {env : CEnv} (hus : ∀ l r, r ∈ env.us l → r ∈ l) (inlines : Bool) (pl : Platform) (main : ObjInput) (name : Str)
    (pe : Option ObjInput) (peName : Option Str) (hF : F → ∀ fs, main.functions = .ok fs → main.Fits fs) :
    Res.Same F (fun o => F → o.symbols.Below) (fromObject env inlines pl main name pe peName)
      (ObjectInfo.fromObject env inlines pl main name pe peName) := by
  unfold fromObject ObjectInfo.fromObject
  cases hf : main.functions with
  | error e => exact .rfl' fun _ h => by cases h
  | ok fs => exact (collect_same hus inlines pl main name peName fs (fun h => hF h fs hf)).bind fun st h => .ok h

theorem remapSym_place {t : Option (List Nat)} {o : List Nat} {s s' : Symbol} (h : ObjectInfo.remapSym t o s = .ok s') :
    s'.rva = s.rva ∧ s'.len = s.len := by
  obtain ⟨s1, e1, h⟩ := Res.ok_of_bind h
  obtain ⟨inl, e2, h⟩ := Res.ok_of_bind h
  cases h
  unfold Symbol.remapLines at e1
  split at e1
  · cases e1; exact ⟨rfl, rfl⟩
  · obtain ⟨ls, e, e1⟩ := Res.ok_of_bind e1
    cases e1
    exact ⟨rfl, rfl⟩

theorem below_insert {m : Symbols} (h : m.Below) {a : Nat} {s : Symbol} (hs : s.rva + s.len < M32) : Symbols.Below (m.insert a s) := by
  intro e he
  rcases SMap.mem_insert he with rfl | he
  · exact hs
  · exact h e he

theorem mergePublic_same {F : Prop} (l : Symbols) (hl : F → l.Below) (a : Nat) (s : Symbol) (hs : F → s.rva + s.len < M32) :
    Res.Same F (fun m => F → m.Below) (mergePublic l a s) (.ok (ObjectInfo.mergePublic l a s)) := by
  unfold mergePublic ObjectInfo.mergePublic
  refine (inside_same hl a).bindOk fun _ => ?_
  by_cases hin : l.isInsideSymbol a = true
  · simp only [hin, if_true]; exact .ok hl
  · simp only [hin]
    cases he : l.get? a with
    | none => exact .ok fun hF => below_insert (hl hF) (hs hF)
    | some e =>
      simp only
      repeat' split
      all_goals first
        | exact .ok hl
        | exact .ok fun hF => below_insert (hl hF) (hs hF)
        | exact .ok fun hF => below_insert (hl hF) (hl hF _ (SMap.mem_of_get? he))

theorem mergeFunc_below {t : Option (List Nat)} {o : List Nat} {l m : Symbols} {a : Nat} {s : Symbol} (hl : l.Below) (hs : s.rva + s.len < M32)
    (h : ObjectInfo.mergeFunc t o l a s = .ok m) : m.Below := by
  unfold ObjectInfo.mergeFunc at h
  split at h
  · rename_i x hx
    split at h
    · obtain ⟨s', e, h⟩ := Res.ok_of_bind h
      cases h
      exact below_insert hl (by show s'.rva + s'.len < M32; rw [(remapSym_place e).1, (remapSym_place e).2]; exact hs)
    · cases h; exact below_insert hl (hl _ (SMap.mem_of_get? hx))
  · obtain ⟨s', e, h⟩ := Res.ok_of_bind h
    cases h
    exact below_insert hl (by rw [(remapSym_place e).1, (remapSym_place e).2]; exact hs)

theorem mergeSyms_same {F : Prop} (t : Option (List Nat)) (o : List Nat) (r : List (Nat × Symbol)) (hr : F → ∀ e ∈ r, e.2.rva + e.2.len < M32)
    (l : Symbols) (hl : F → l.Below) : Res.Same F (fun m => F → m.Below) (mergeSyms t o r l) (ObjectInfo.mergeSyms t o r l) := by
  induction r generalizing l with
  | nil => exact .ok hl
  | cons e r ih =>
    obtain ⟨a, s⟩ := e
    have hr' : F → ∀ e ∈ r, e.2.rva + e.2.len < M32 := fun hF e he => hr hF e (by simp [he])
    unfold mergeSyms ObjectInfo.mergeSyms
    split
    · exact (mergePublic_same l hl a s fun hF => hr hF (a, s) (by simp)).bindOk fun h => ih hr' _ h
    · refine (Res.Same.rfl' (P := fun m => F → m.Below) fun m h hF => ?_).bind fun m h => ih hr' m h
      exact mergeFunc_below (hl hF) (hr hF (a, s) (by simp)) h

theorem mergeOrigins_same {F : Prop} (l r : List Str) (h : F → l.length + r.length < M32) :
    Res.Same F (fun _ => True) (mergeOrigins l r) (.ok (InlineOrigins.merge l r)) := by
  unfold mergeOrigins InlineOrigins.merge
  split
  · exact .ok trivial
  · split
    · exact .ok trivial
    · refine (cadd_same (F := F) (m := M32) fun hF => ?_).bindOk fun _ => .ok trivial
      have := h hF
      rw [u32_of_lt (by omega), u32_of_lt (by omega)]
      exact this

theorem mergeInto_same {F : Prop} (order : List (Str × Nat) → List (Str × Nat)) (l r : ObjectInfo) (hl : F → l.symbols.Below)
    (hr : F → r.symbols.Below) (ho : F → l.inlineOrigins.length + r.inlineOrigins.length < M32) :
    Res.Same F (fun o => F → o.symbols.Below) (mergeInto order l r) (ObjectInfo.mergeInto order l r) := by
  unfold mergeInto ObjectInfo.mergeInto
  refine (Res.Same.rfl' (P := fun _ => True) fun _ _ => trivial).bind fun x _ => ?_
  refine (mergeOrigins_same _ _ ho).bindOk fun _ => ?_
  exact (mergeSyms_same x.2 _ r.symbols hr l.symbols hl).bind fun m h => .ok h

theorem merge_same {F : Prop} (order : List (Str × Nat) → List (Str × Nat)) (l r : ObjectInfo) (hl : F → l.symbols.Below)
    (hr : F → r.symbols.Below) (ho : F → l.inlineOrigins.length + r.inlineOrigins.length < M32) :
    Res.Same F (fun o => F → o.symbols.Below) (merge order l r) (ObjectInfo.merge order l r) := by
  unfold merge ObjectInfo.merge
  split
  · exact .rfl' fun _ h => by cases h
  · unfold ObjectInfo.bySize
    split
    · exact mergeInto_same order l r hl hr ho
    · exact mergeInto_same order r l hr hl fun hF => by have := ho hF; omega

end Checked
end DumpSyms
