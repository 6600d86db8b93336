import Verif.Proof.Size
import Verif.Proof.Mini
/-!
# Counting what is dumped and merged
-/
namespace DumpSyms
open ObjectInfo Res

namespace Size

/-- What has been collected. -/
def ofState (st : Collector.State) : Size :=
  { ofSymbols st.syms with files := st.src.idToRef.length, origins := st.org.demangledNames.length }

/-- Some symbols without lines. -/
def symbols' (n : Nat) : Size := { zero with symbols := n }

theorem symbols'_add (n m : Nat) : (symbols' n).add (symbols' m) = symbols' (n + m) := rfl

theorem ofSymbols_rest (m : Symbols) : (ofSymbols m).files = 0 ∧ (ofSymbols m).origins = 0 := by
  unfold ofSymbols
  induction m with
  | nil => exact ⟨rfl, rfl⟩
  | cons e m ih =>
    rw [List.map_cons, total_cons]
    exact ⟨by show 0 + _ = 0; rw [ih.1], by show 0 + _ = 0; rw [ih.2]⟩

end Size

open Size

namespace Symbols

/-- More symbols without lines. -/
structure Grow (m m' : Symbols) (n : Nat) : Prop where
  sorted : m'.Sorted
  size : (ofSymbols m').Le ((ofSymbols m).add (symbols' n))

theorem Grow.refl {m : Symbols} (h : m.Sorted) (n : Nat) : Grow m m n := ⟨h, le_add_right _ _⟩

theorem Grow.trans {a b c : Symbols} {n k : Nat} (h : Grow a b n) (h' : Grow b c k) : Grow a c (n + k) := by
  refine ⟨h'.sorted, h'.size.trans ?_⟩
  rw [← symbols'_add, ← Size.add_assoc]
  exact h.size.add (.refl _)

theorem Grow.insert {m : Symbols} (hs : m.Sorted) (a : Nat) (s : Symbol) (h : ofLines s.source = Size.symbol) : Grow m (m.insert a s) 1 := by
  refine ⟨SMap.insert_sorted hs _ _, ?_⟩
  have := SMap.total_insert_le m a s (fun s => ofLines s.source)
  simp only [h] at this
  exact this

theorem Grow.orInsert {m : Symbols} (hs : m.Sorted) (a : Nat) (s : Symbol) (h : ofLines s.source = Size.symbol) : Grow m (m.orInsert a s) 1 := by
  unfold Symbols.orInsert
  split
  · exact .refl hs _
  · exact .insert hs a s h

theorem Grow.replace {m : Symbols} (hs : m.Sorted) {a : Nat} {old s : Symbol} (ho : m.get? a = some old) (h : s.source = old.source) :
    Grow m (m.insert a s) 0 := by
  refine ⟨SMap.insert_sorted hs _ _, ?_⟩
  have := SMap.total_insert_eq hs ho s (fun s => ofLines s.source) (by rw [h]; exact .refl _)
  exact this

end Symbols

namespace Collector
open Symbols

theorem publicOccupied_source (env : CEnv) (w : Option WinName) (s : Symbol) : (publicOccupied env w s).source = s.source := by
  unfold publicOccupied
  split
  · rfl
  · cases w with
    | none => rfl
    | some w =>
      simp only
      cases w.paramSize <;> simp only <;> split <;> rfl

theorem collectPublics_grow {env : CEnv} {pl : Platform} {ps : List Public} {m m' : Symbols} (hs : m.Sorted)
    (h : collectPublics env pl ps m = .ok m') : Grow m m' ps.length := by
  induction ps generalizing m with
  | nil => cases h; exact .refl hs _
  | cons p ps ih =>
    obtain ⟨m1, e, h⟩ := ok_of_bind h
    have h1 : Grow m m1 1 := by
      unfold collectPublic at e
      split at e
      · cases e; exact .refl hs _
      · split at e
        · cases e; exact .refl hs _
        · obtain ⟨w, _, e⟩ := ok_of_bind e
          cases e
          unfold putPublic
          split
          · rename_i old ho
            exact ⟨(Grow.replace hs ho (publicOccupied_source env w old)).sorted,
              (Grow.replace hs ho (publicOccupied_source env w old)).size.trans ((Size.Le.refl _).add (Size.le_add_right _ (symbols' 1)))⟩
          · exact .insert hs _ _ rfl
    have := h1.trans (ih h1.sorted h)
    rwa [Nat.add_comm] at this

theorem collectPlaceholders_grow {name : Str} {es : List ExcEntry} {m : Symbols} (hs : m.Sorted) :
    Grow m (collectPlaceholders name es m) es.length := by
  induction es generalizing m with
  | nil => exact .refl hs _
  | cons e es ih =>
    have h1 : Grow m (collectPlaceholder name e m) 1 := by
      unfold collectPlaceholder
      split
      · exact .refl hs _
      · split
        · exact .refl hs _
        · exact .orInsert hs _ _ rfl
    have := h1.trans (ih h1.sorted)
    rwa [Nat.add_comm] at this

theorem functionOps_counts {env : CEnv} (hus : ∀ l, (env.us l).length = l.length) {inlines : Bool} {f : Func} {src src' : SourceFiles}
    {org org' : InlineOrigins} {ops : List LOp} (h : functionOps env inlines f src org = .ok (ops, src', org')) :
    ops.countP LOp.isLine ≤ f.lines.length + 2 * f.inlined ∧ ops.countP LOp.isInl ≤ f.inlined ∧
      src'.idToRef.length ≤ src.idToRef.length + f.entries ∧
      org'.demangledNames.length ≤ org.demangledNames.length + f.calls := by
  unfold functionOps at h
  split at h
  · exact collectRec_counts hus f h
  · obtain ⟨⟨ops', s'⟩, e, h⟩ := ok_of_bind h
    cases h
    obtain ⟨h1, h2, h3⟩ := linesNoInlines_counts e
    have he : f.entries = f.lines.length + f.inlined := by cases f; rw [Func.entries]; rfl
    omega

theorem collectFunction_size {env : CEnv} (hus : ∀ l, (env.us l).length = l.length) {inlines : Bool} {f : Func} {st st' : State}
    (hs : st.syms.Sorted) (h : collectFunction env inlines f st = .ok st') :
    st'.syms.Sorted ∧ (ofState st').Le ((ofState st).add (ofFunc f)) := by
  unfold collectFunction at h
  split at h
  · cases h; exact ⟨hs, le_add_right _ _⟩
  · split at h
    · rename_i sym he
      cases h
      unfold existingFunc at he
      split at he
      · rename_i s hg
        split at he
        · cases he
        · cases he
          have := Grow.replace (s := { sym with isMultiple := true }) hs hg rfl
          refine ⟨this.sorted, Size.Le.trans ?_ (le_add_right _ _)⟩
          have hz := this.size
          exact ⟨hz.symbols, Nat.le_refl _, Nat.le_refl _, hz.lines, hz.inlines, hz.ranges⟩
      · cases he
    · obtain ⟨⟨ops, src, org⟩, e1, h⟩ := ok_of_bind h
      obtain ⟨L, e2, h⟩ := ok_of_bind h
      cases h
      obtain ⟨c1, c2, c3, c4⟩ := functionOps_counts hus e1
      refine ⟨SMap.insert_sorted hs _ _, ?_⟩
      have hl := Lines.finalize_size e2
      have ht : (ofSymbols (st.syms.insert (u32 f.address) _)).Le _ :=
        SMap.total_insert_le st.syms (u32 f.address) (Symbol.mk (demangle env f.name) false false false (u32 f.address) (u32 f.size) 0 L)
          (fun s => ofLines s.source)
      have h4 := hl.lines
      have h5 := hl.inlines
      have h6 := hl.ranges
      simp only at h4 h5 h6
      refine ⟨ht.symbols, c3, c4, Nat.le_trans ht.lines ?_, Nat.le_trans ht.inlines ?_, Nat.le_trans ht.ranges ?_⟩
      · exact Nat.add_le_add_left (Nat.le_trans h4 c1) _
      · exact Nat.add_le_add_left (Nat.le_trans h5 c2) _
      · exact Nat.add_le_add_left (Nat.le_trans h6 c2) _

theorem collectFunctions_size {env : CEnv} (hus : ∀ l, (env.us l).length = l.length) {inlines : Bool} {fs : List (Option Func)} {st st' : State}
    (hs : st.syms.Sorted) (h : collectFunctions env inlines fs st = .ok st') :
    st'.syms.Sorted ∧ (ofState st').Le ((ofState st).add (total ((fs.filterMap fun f => f).map ofFunc))) := by
  induction fs generalizing st with
  | nil => cases h; exact ⟨hs, le_add_right _ _⟩
  | cons f fs ih =>
    cases f with
    | none => exact ih hs h
    | some f =>
      obtain ⟨st1, e, h⟩ := ok_of_bind h
      obtain ⟨h1, h2⟩ := collectFunction_size hus hs e
      obtain ⟨k1, k2⟩ := ih h1 h
      refine ⟨k1, k2.trans ?_⟩
      have : ((some f :: fs).filterMap fun f => f) = f :: fs.filterMap fun f => f := rfl
      rw [this, List.map_cons, total_cons, ← Size.add_assoc]
      exact h2.add (.refl _)

end Collector

open Symbols

theorem addSections_grow {name : Str} {l : List Section} {m : Symbols} (hs : m.Sorted) :
    Grow m (addSections name l m) (l.filter (·.executable)).length := by
  induction l generalizing m with
  | nil => exact .refl hs _
  | cons x l ih =>
    unfold addSections
    cases hx : x.executable with
    | false =>
      rw [List.filter_cons_of_neg (by simp [hx])]
      exact ih hs
    | true =>
      rw [List.filter_cons_of_pos hx, List.length_cons, if_pos rfl]
      have h1 := Grow.orInsert hs (u32 x.addr) (sectionSymbol name x) rfl
      have := h1.trans (ih h1.sorted)
      rwa [Nat.add_comm] at this

theorem appendDummy_grow {name : Str} {m : Symbols} (hs : m.Sorted) : Grow m (appendDummy m name) 1 := by
  unfold appendDummy
  split
  · exact .refl hs _
  · exact .orInsert hs _ _ rfl

theorem addExecutable_grow {name : Str} {k : ObjKind} {m : Symbols} (hs : m.Sorted) :
    Grow m (addExecutableSectionSymbols m name k) (sectionCount k) := by
  cases k with
  | elf l => exact addSections_grow hs
  | pe => exact appendDummy_grow hs
  | pdb => exact appendDummy_grow hs
  | other => exact .refl hs _

theorem withPlaceholders_grow {main : ObjInput} {name : Str} {peName : Option Str} {m : Symbols} (hs : m.Sorted) :
    Grow m (withPlaceholders main name peName m) (exceptionCount main) := by
  unfold withPlaceholders exceptionCount
  split
  · split
    · rename_i h
      rw [h]; exact Collector.collectPlaceholders_grow hs
    · exact .refl hs _
  · exact .refl hs _

theorem withMini_grow {env : CEnv} {pl : Platform} {main : ObjInput} {ps : List Collector.Public} (hin : main.EmbeddedInside) (hps : main.Embeds ps)
    {m m' : Symbols} (hs : m.Sorted) (h : withMini env pl main m = .ok m') : Grow m m' ps.length := by
  obtain ⟨r, hr, rfl⟩ := (embeds_iff hin ps).mp hps
  obtain ⟨r', e, h⟩ := ok_of_bind h
  rw [hr] at e
  cases e
  cases r with
  | none => cases h; exact .refl hs _
  | some ps => exact Collector.collectPublics_grow hs h

theorem collect_size {env : CEnv} (hus : ∀ l, (env.us l).length = l.length) {inlines : Bool} {pl : Platform} {main : ObjInput} {name : Str}
    {peName : Option Str} {fs : List (Option Func)} {ps : List Collector.Public} (hin : main.EmbeddedInside) (hps : main.Embeds ps)
    {st : Collector.State} (h : collect env inlines pl main name peName fs = .ok st) : (ofState st).Le (ofInput main fs ps) := by
  obtain ⟨st1, e1, h⟩ := ok_of_bind h
  obtain ⟨m1, e2, h⟩ := ok_of_bind h
  obtain ⟨m2, e3, h⟩ := ok_of_bind h
  cases h
  obtain ⟨h1, h2⟩ := Collector.collectFunctions_size hus (by exact List.Pairwise.nil) e1
  have g1 := withPlaceholders_grow (main := main) (name := name) (peName := peName) h1
  have g2 := g1.trans (Collector.collectPublics_grow g1.sorted e2)
  have g3 := g2.trans (withMini_grow hin hps g2.sorted e3)
  have g4 := g3.trans (addExecutable_grow (name := name) (k := main.kind) g3.sorted)
  have e0 : ofState Collector.State.new = Size.zero := rfl
  rw [e0, Size.zero_add] at h2
  have hz := g4.size
  unfold ofInput
  refine Size.Le.trans ?_ (h2.add (.refl _))
  exact ⟨hz.symbols, Nat.le_refl _, Nat.le_refl _, hz.lines, hz.inlines, hz.ranges⟩

/-- Renumbering keeps everything. -/
theorem remapLineList_length {t : List Nat} {l l' : List Line} (h : Symbol.remapLineList t l = .ok l') : l'.length = l.length := by
  induction l generalizing l' with
  | nil => cases h; rfl
  | cons a l ih =>
    obtain ⟨i, _, h⟩ := ok_of_bind h
    obtain ⟨k, e, h⟩ := ok_of_bind h
    cases h
    rw [List.length_cons, List.length_cons, ih e]

theorem remapInlineList_size {t : Option (List Nat)} {o : List Nat} {l : List (InlineSite × List IRange)} {acc m : SMap InlineSite (List IRange)}
    (h : Symbol.remapInlineList t o l acc = .ok m) : m.length ≤ l.length + acc.length ∧
      (m.map fun e => e.2.length).sum ≤ (l.map fun e => e.2.length).sum + (acc.map fun e => e.2.length).sum := by
  induction l generalizing acc with
  | nil => cases h; simp
  | cons e l ih =>
    obtain ⟨s, r⟩ := e
    obtain ⟨s', _, h⟩ := ok_of_bind h
    obtain ⟨h1, h2⟩ := ih h
    have k1 := SMap.length_insert_le acc s' r
    have k2 := SMap.sum_insert_le acc s' r List.length
    simp only [List.length_cons, List.map_cons, List.sum_cons]
    omega

theorem remapSym_size {t : Option (List Nat)} {o : List Nat} {s s' : Symbol} (h : remapSym t o s = .ok s') :
    (ofLines s'.source).Le (ofLines s.source) := by
  obtain ⟨s1, e1, h⟩ := ok_of_bind h
  obtain ⟨inl, e2, h⟩ := ok_of_bind h
  cases h
  have hl : s1.source.lines.length = s.source.lines.length ∧ s1.source.inlines = s.source.inlines := by
    unfold Symbol.remapLines at e1
    split at e1
    · cases e1; exact ⟨rfl, rfl⟩
    · obtain ⟨ls, e, e1⟩ := ok_of_bind e1
      cases e1
      exact ⟨remapLineList_length e, rfl⟩
  obtain ⟨k1, k2⟩ := remapInlineList_size e2
  rw [hl.2] at k1 k2
  exact ⟨Nat.le_refl _, Nat.le_refl _, Nat.le_refl _, Nat.le_of_eq hl.1, k1, k2⟩

theorem le_add_left (a b : Size) : a.Le (b.add a) := by rw [Size.add_comm]; exact Size.le_add_right _ _

theorem mergeSyms_size {t : Option (List Nat)} {o : List Nat} {r : List (Nat × Symbol)} {l m : Symbols} (hs : l.Sorted)
    (h : mergeSyms t o r l = .ok m) : (ofSymbols m).Le ((ofSymbols l).add (total (r.map fun e => ofLines e.2.source))) := by
  induction r generalizing l with
  | nil => cases h; exact le_add_right _ _
  | cons e r ih =>
    obtain ⟨a, s⟩ := e
    unfold mergeSyms at h
    have fin : ∀ l' : Symbols, l'.Sorted → (ofSymbols l').Le ((ofSymbols l).add (ofLines s.source)) → mergeSyms t o r l' = .ok m →
        (ofSymbols m).Le ((ofSymbols l).add (total (((a, s) :: r).map fun e => ofLines e.2.source))) := by
      intro l' hs' hz h
      refine (ih hs' h).trans ?_
      rw [List.map_cons, total_cons, ← Size.add_assoc]
      exact hz.add (.refl _)
    have ins : ∀ s' : Symbol, (ofLines s'.source).Le (ofLines s.source) →
        (ofSymbols (l.insert a s')).Le ((ofSymbols l).add (ofLines s.source)) := fun s' h =>
      (SMap.total_insert_le l a s' (fun s => ofLines s.source)).trans ((Size.Le.refl _).add h)
    split at h
    · refine fin (mergePublic l a s) ?_ ?_ h
      · unfold mergePublic
        split
        · exact hs
        · split
          · split
            · exact hs
            · split
              · exact SMap.insert_sorted hs _ _
              · split
                · exact SMap.insert_sorted hs _ _
                · exact hs
          · exact SMap.insert_sorted hs _ _
      · unfold mergePublic
        split
        · exact le_add_right _ _
        · split
          · rename_i e he
            split
            · exact le_add_right _ _
            · split
              · exact ins s (.refl _)
              · split
                · exact (Grow.replace (s := { e with isMultiple := true }) hs he rfl).size.trans (le_add_right _ _)
                · exact le_add_right _ _
          · exact ins s (.refl _)
    · obtain ⟨l', e1, h⟩ := ok_of_bind h
      unfold mergeFunc at e1
      split at e1
      · rename_i x hx
        split at e1
        · obtain ⟨s', e2, e1⟩ := ok_of_bind e1
          cases e1
          have hz : (ofLines s'.source).Le (ofLines s.source) := remapSym_size e2
          exact fin _ (SMap.insert_sorted hs _ _) (ins { s' with isMultiple := true } hz) h
        · cases e1
          exact fin _ (SMap.insert_sorted hs _ _) ((Grow.replace (s := { x with isMultiple := true }) hs hx rfl).size.trans (le_add_right _ _)) h
      · obtain ⟨s', e2, e1⟩ := ok_of_bind e1
        cases e1
        exact fin _ (SMap.insert_sorted hs _ _) (ins _ (remapSym_size e2)) h

end DumpSyms
