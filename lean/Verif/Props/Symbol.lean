import Verif.Proof.Names
import Verif.Proof.Symbols
import Verif.Model.Collector
import Verif.Props.WinName
/-!
# C15, C16, C17: public symbols, placeholder functions, section and end-of-module symbols
-/
namespace DumpSyms
open Symbols Collector

/-- The names the code skips are exactly the compiler-made constants. -/
theorem shouldSkipSymbol_iff (n : Str) : shouldSkipSymbol n = true ↔ CompilerConstant n := by
  unfold shouldSkipSymbol isConstantString isConstantNumber CompilerConstant
  simp only [Bool.or_eq_true, List.isPrefixOf_iff_prefix]
  constructor
  · rintro (⟨r, h⟩ | h)
    · exact ⟨r, .inl h.symm⟩
    · split at h
      · rename_i hp
        obtain ⟨q, rfl⟩ := hp
        simp only [Bool.or_eq_true, List.isPrefixOf_iff_prefix] at h
        rcases h with (⟨r, h⟩ | ⟨r, h⟩) | ⟨r, h⟩
        · simp at h; exact ⟨r, .inr (.inl (by simp [← h]))⟩
        · simp at h; exact ⟨r, .inr (.inr (.inl (by simp [← h])))⟩
        · simp at h; exact ⟨r, .inr (.inr (.inr (by simp [← h])))⟩
      · cases h
  · rintro ⟨r, rfl | rfl | rfl | rfl⟩
    · exact .inl ⟨r, rfl⟩
    · right; simp [List.prefix_iff_eq_take]
    · right; simp [List.prefix_iff_eq_take]
    · right; simp [List.prefix_iff_eq_take]

theorem skipped_iff (p : Public) : p.skipped = true ↔ p.IsConstant := by
  unfold Public.skipped Public.IsConstant
  cases p.name with
  | none => simp
  | some n => simp [shouldSkipSymbol_iff]

/-- The three outcomes of adding a public symbol. -/
theorem collectPublic_cases {env : CEnv} {pl : Platform} {p : Public} {m m' : Symbols} (hs : m.Sorted) (hk : Keyed m)
    (h : collectPublic env pl p m = .ok m') :
    (m' = m ∧ (p.IsConstant ∨ InsideClosest m (u32 p.address))) ∨
    (¬ p.IsConstant ∧ ¬ InsideClosest m (u32 p.address) ∧ ∃ w, winName pl p.name = .ok w ∧ m' = putPublic env w p m) := by
  unfold collectPublic at h
  by_cases hi : m.isInsideSymbol (u32 p.address) = true
  · rw [if_pos hi] at h
    cases h
    exact .inl ⟨rfl, .inr ((isInsideSymbol_iff hs hk).mp hi)⟩
  · rw [if_neg hi] at h
    by_cases hsk : p.skipped = true
    · rw [if_pos hsk] at h
      cases h
      exact .inl ⟨rfl, .inl ((skipped_iff p).mp hsk)⟩
    · rw [if_neg hsk] at h
      cases hw : winName pl p.name with
      | err e => rw [hw] at h; cases h
      | panic => rw [hw] at h; cases h
      | ok w =>
        rw [hw] at h
        simp only [Res.bind_ok] at h
        cases h
        exact .inr ⟨fun hc => hsk ((skipped_iff p).mpr hc), fun hc => hi ((isInsideSymbol_iff hs hk).mpr hc), w, rfl, rfl⟩

theorem putPublic_sorted {env : CEnv} {w : Option WinName} {p : Public} {m : Symbols} (hs : m.Sorted) :
    (putPublic env w p m).Sorted := by
  unfold putPublic
  split <;> exact SMap.insert_sorted hs ..

/-- **C15, one public symbol.** Adding a public symbol changes at most the symbol at its address.  A compiler constant,
and a public inside the closest preceding symbol, changes nothing.  Otherwise: if the address is free, a PUBLIC with the
given size and no records is put there; if there is a PUBLIC it only gets the `m` flag; if there is a FUNC, only its name
(when it has no parenthesis) and parameter size may change, and only for Windows, to what the decorated name says. -/
theorem C15_one_public (env : CEnv) (pl : Platform) (p : Public) (m m' : Symbols) (hs : m.Sorted) (hk : Keyed m)
    (h : collectPublic env pl p m = .ok m') :
    (∀ b, b ≠ u32 p.address → m'.get? b = m.get? b) ∧
    (p.IsConstant ∨ InsideClosest m (u32 p.address) → m' = m) ∧
    (¬ p.IsConstant → ¬ InsideClosest m (u32 p.address) →
      (m.get? (u32 p.address) = none → ∃ s, m'.get? (u32 p.address) = some s ∧ s.isPublic = true ∧
        s.isMultiple = false ∧ s.isSynthetic = false ∧ s.rva = u32 p.address ∧ s.len = u32 p.size ∧ s.NoRecords ∧
        (pl ≠ .win ∨ p.name = none → s.parameterSize = 0 ∧
          (p.name = none → s.name = str% "<name omitted>") ∧ ∀ n, p.name = some n → PublicName env.dm env.detect n s.name) ∧
        (pl = .win → ∀ n base size, p.name = some n → Undecorated n base size →
          PublicName env.dm env.detect base s.name ∧ s.parameterSize = size.getD 0)) ∧
      (∀ s, m.get? (u32 p.address) = some s → s.isPublic = true →
        m'.get? (u32 p.address) = some { s with isMultiple := true }) ∧
      (∀ s, m.get? (u32 p.address) = some s → s.isPublic = false →
        ∃ n k, m'.get? (u32 p.address) = some { s with name := n, parameterSize := k } ∧
          ('(' ∈ s.name → n = s.name) ∧ (pl ≠ .win ∨ p.name = none → n = s.name ∧ k = s.parameterSize) ∧
          (pl = .win → ∀ q base size, p.name = some q → Undecorated q base size →
            ('(' ∉ s.name → PublicName env.dm env.detect base n) ∧ k = size.getD s.parameterSize))) := by
  rcases collectPublic_cases hs hk h with ⟨rfl, hc⟩ | ⟨hnc, hni, w, hw, rfl⟩
  · exact ⟨fun _ _ => rfl, fun _ => rfl, fun h1 h2 => (hc.elim h1 h2).elim⟩
  · have hwn : pl ≠ .win ∨ p.name = none → w = none := by
      intro hor
      unfold winName at hw
      by_cases hpl : pl = .win
      · rcases hor with hor | hor
        · exact absurd hpl hor
        · rw [if_pos hpl, hor] at hw; simp at hw; exact hw.symm
      · rw [if_neg hpl] at hw; simp at hw; exact hw.symm
    have hww : pl = .win → ∀ q b z, p.name = some q → Undecorated q b z → w = some ⟨b, z⟩ := by
      intro hpl q b z hq hv
      have hv := (C41_decorated q b z).mpr hv
      unfold winName at hw
      rw [if_pos hpl, hq] at hw
      simp [hv] at hw
      exact hw.symm
    refine ⟨?_, fun hor => (hor.elim hnc hni).elim, fun _ _ => ⟨?_, ?_, ?_⟩⟩
    · intro b hb
      unfold putPublic
      split <;> rw [SMap.get?_insert _ _ _ hs, if_neg (fun e => hb e.symm)]
    · intro hn
      refine ⟨publicVacant env w p, ?_, rfl, rfl, rfl, rfl, rfl, ⟨rfl, rfl⟩, ?_, ?_⟩
      · unfold putPublic
        rw [hn]
        simp only
        rw [SMap.get?_insert _ _ _ hs, if_pos rfl]
      · intro hpl
        rw [hwn hpl]
        refine ⟨rfl, fun hn => ?_, fun n hn => (publicName_iff env n _).mpr ?_⟩ <;>
          (unfold publicVacant; rw [hn])
      · intro hpl q b z hq hv
        rw [hww hpl q b z hq hv]
        exact ⟨(publicName_iff env _ _).mpr rfl, rfl⟩
    · intro s hg hp
      unfold putPublic
      rw [hg]
      simp only
      rw [SMap.get?_insert _ _ _ hs, if_pos rfl]
      simp [publicOccupied, hp]
    · intro s hg hp
      unfold putPublic
      rw [hg]
      simp only
      rw [SMap.get?_insert _ _ _ hs, if_pos rfl]
      cases w with
      | none =>
        refine ⟨s.name, s.parameterSize, by cases s; simp_all [publicOccupied], by simp, by simp, ?_⟩
        intro hpl q b z hq hv
        cases hww hpl q b z hq hv
      | some w =>
        refine ⟨if '(' ∉ s.name then demangleStr env w.name else s.name, w.paramSize.getD s.parameterSize, ?_, ?_, ?_, ?_⟩
        · unfold publicOccupied
          cases s
          simp only at hp
          subst hp
          by_cases hb : '(' ∈ (‹Str› : Str) <;> cases hz : w.paramSize <;> simp [hb, hz]
        · intro hb; simp [hb]
        · intro hor; cases hwn hor
        · intro hpl q b z hq hv
          cases hww hpl q b z hq hv
          exact ⟨fun hb => (publicName_iff env _ _).mpr (by simp [hb]), rfl⟩

theorem collectPublic_fill {env : CEnv} {pl : Platform} {p : Public} {m m' : Symbols} (hs : m.Sorted) (hk : Keyed m)
    (h : collectPublic env pl p m = .ok m') : FillStep m m' (u32 p.address) := by
  obtain ⟨h1, h2, h3⟩ := C15_one_public env pl p m m' hs hk h
  by_cases hc : p.IsConstant ∨ InsideClosest m (u32 p.address)
  · rw [h2 hc]
    exact ⟨hs, hk, fun _ _ => rfl, fun s hs => ⟨s, hs, rfl⟩, fun a b => absurd a b⟩
  · have hc1 : ¬ p.IsConstant := fun x => hc (.inl x)
    have hc2 : ¬ InsideClosest m (u32 p.address) := fun x => hc (.inr x)
    obtain ⟨a1, a2, a3⟩ := h3 hc1 hc2
    have hsorted : m'.Sorted := by
      rcases collectPublic_cases hs hk h with ⟨rfl, _⟩ | ⟨_, _, w, _, rfl⟩
      · exact hs
      · exact putPublic_sorted hs
    refine ⟨hsorted, ?_, h1, ?_, fun _ _ => hc2⟩
    · intro b s hb
      by_cases hba : b = u32 p.address
      · subst hba
        cases hg : m.get? (u32 p.address) with
        | none =>
          obtain ⟨s', e, _, _, _, e1, e2, _⟩ := a1 hg
          rw [hb] at e; cases e
          exact ⟨e1, u32_lt _, e2 ▸ u32_lt _⟩
        | some s0 =>
          have k := hk _ _ hg
          cases hp : s0.isPublic with
          | true => rw [a2 s0 hg hp] at hb; cases hb; exact k
          | false => obtain ⟨n, q, e, _⟩ := a3 s0 hg hp; rw [e] at hb; cases hb; exact k
      · rw [h1 b hba] at hb; exact hk b s hb
    · intro s hg
      cases hp : s.isPublic with
      | true => exact ⟨_, a2 s hg hp, rfl⟩
      | false => obtain ⟨n, q, e, _⟩ := a3 s hg hp; exact ⟨_, e, rfl⟩

/-- **C15.** After adding any list of public symbols: a FUNC is still there, with at most its name and parameter size
changed (nothing for other platforms than Windows); a PUBLIC is still there, at most with the `m` flag set; a new symbol
is a PUBLIC without records that stands for some public of the list that is not a compiler constant, and is not inside the
symbol that was closest before it; and every public of the list that is not a compiler constant has a symbol at its
address or is inside the closest preceding symbol. -/
theorem C15_publics (env : CEnv) (pl : Platform) (ps : List Public) (m m' : Symbols) (hs : m.Sorted) (hk : Keyed m)
    (h : collectPublics env pl ps m = .ok m') :
    m'.Sorted ∧ Keyed m' ∧
    (∀ a s, m.get? a = some s → s.isPublic = false →
      ∃ n k, m'.get? a = some { s with name := n, parameterSize := k } ∧
        ('(' ∈ s.name → n = s.name) ∧ (pl ≠ .win → n = s.name ∧ k = s.parameterSize)) ∧
    (∀ a s, m.get? a = some s → s.isPublic = true →
      m'.get? a = some s ∨ m'.get? a = some { s with isMultiple := true }) ∧
    (∀ a s, m.get? a = none → m'.get? a = some s →
      ¬ InsideClosest m a ∧ s.isPublic = true ∧ s.isSynthetic = false ∧ s.NoRecords ∧
      ∃ p ∈ ps, u32 p.address = a ∧ u32 p.size = s.len ∧ ¬ p.IsConstant) ∧
    (∀ p ∈ ps, ¬ p.IsConstant → m'.get? (u32 p.address) ≠ none ∨ InsideClosest m' (u32 p.address)) ∧
    (∀ a, InsideClosest m a → InsideClosest m' a ∧ (m.get? a = none → m'.get? a = none)) := by
  induction ps generalizing m with
  | nil =>
    cases h
    refine ⟨hs, hk, ?_, fun a s h _ => .inl h, ?_, by simp, fun a h => ⟨h, id⟩⟩
    · intro a s h _; exact ⟨s.name, s.parameterSize, h, fun _ => rfl, fun _ => ⟨rfl, rfl⟩⟩
    · intro a s h1 h2; rw [h1] at h2; cases h2
  | cons p ps ih =>
    unfold collectPublics at h
    cases hc : collectPublic env pl p m with
    | err e => rw [hc] at h; cases h
    | panic => rw [hc] at h; cases h
    | ok m1 =>
      rw [hc] at h
      simp only [Res.bind_ok] at h
      obtain ⟨o1, o2, o3⟩ := C15_one_public env pl p m m1 hs hk hc
      have fill := collectPublic_fill hs hk hc
      obtain ⟨i1, i2, i3, i4, i5, i6, i7⟩ := ih m1 fill.sorted fill.keyed h
      have hfunc : ∀ a s, m.get? a = some s → s.isPublic = false →
          ∃ n k, m1.get? a = some { s with name := n, parameterSize := k } ∧
            ('(' ∈ s.name → n = s.name) ∧ (pl ≠ .win → n = s.name ∧ k = s.parameterSize) := by
        intro a s hg hp
        by_cases ha : a = u32 p.address
        · by_cases hcc : p.IsConstant ∨ InsideClosest m (u32 p.address)
          · rw [o2 hcc]; exact ⟨s.name, s.parameterSize, hg, fun _ => rfl, fun _ => ⟨rfl, rfl⟩⟩
          · subst ha
            obtain ⟨n, k, e, e1, e2, _⟩ := (o3 (fun x => hcc (.inl x)) (fun x => hcc (.inr x))).2.2 s hg hp
            exact ⟨n, k, e, e1, fun hpl => e2 (.inl hpl)⟩
        · exact ⟨s.name, s.parameterSize, by rw [o1 a ha, hg], fun _ => rfl, fun _ => ⟨rfl, rfl⟩⟩
      refine ⟨i1, i2, ?_, ?_, ?_, ?_, ?_⟩
      · intro a s hg hp
        obtain ⟨n, k, e, e1, e2⟩ := hfunc a s hg hp
        obtain ⟨n', k', f, f1, f2⟩ := i3 a _ e hp
        refine ⟨n', k', f, ?_, ?_⟩
        · intro hb
          have := e1 hb
          simp only [this] at f1
          exact f1 hb
        · intro hpl
          obtain ⟨x1, x2⟩ := e2 hpl
          obtain ⟨y1, y2⟩ := f2 hpl
          simp only at y1 y2
          exact ⟨y1.trans x1, y2.trans x2⟩
      · intro a s hg hp
        have h1 : m1.get? a = some s ∨ m1.get? a = some { s with isMultiple := true } := by
          by_cases ha : a = u32 p.address
          · by_cases hcc : p.IsConstant ∨ InsideClosest m (u32 p.address)
            · rw [o2 hcc]; exact .inl hg
            · subst ha
              exact .inr ((o3 (fun x => hcc (.inl x)) (fun x => hcc (.inr x))).2.1 s hg hp)
          · exact .inl (by rw [o1 a ha, hg])
        rcases h1 with h1 | h1
        · exact i4 a s h1 hp
        · rcases i4 a _ h1 hp with h2 | h2
          · exact .inr h2
          · exact .inr h2
      · intro a s hg hg'
        cases h1 : m1.get? a with
        | none =>
          obtain ⟨x1, x2, x3, x4, q, hq, x5⟩ := i5 a s h1 hg'
          refine ⟨?_, x2, x3, x4, q, by simp [hq], x5⟩
          intro hi
          exact x1 (fill.inside' hi)
        | some s1 =>
          have ha : a = u32 p.address := by
            apply Classical.byContradiction
            intro ha
            rw [o1 a ha, hg] at h1; cases h1
          subst ha
          have hcc : ¬ (p.IsConstant ∨ InsideClosest m (u32 p.address)) := by
            intro hcc
            rw [o2 hcc, hg] at h1; cases h1
          obtain ⟨s2, e, y1, y2, y3, y4, y5, y6, _⟩ := (o3 (fun x => hcc (.inl x)) (fun x => hcc (.inr x))).1 hg
          rw [h1] at e; cases e
          refine ⟨fun x => hcc (.inr x), ?_⟩
          rcases i4 _ _ h1 y1 with e | e
          · rw [hg'] at e; cases e
            exact ⟨y1, y3, y6, p, by simp, rfl, y5.symm, fun x => hcc (.inl x)⟩
          · rw [hg'] at e; cases e
            exact ⟨y1, y3, y6, p, by simp, rfl, y5.symm, fun x => hcc (.inl x)⟩
      · intro q hq hnc
        rcases List.mem_cons.mp hq with rfl | hq
        · by_cases hin : InsideClosest m (u32 q.address)
          · exact .inr (i7 _ (fill.inside' hin)).1
          · left
            obtain ⟨z1, z2, z3⟩ := o3 hnc hin
            have : ∃ s1, m1.get? (u32 q.address) = some s1 := by
              cases hg : m.get? (u32 q.address) with
              | none => obtain ⟨s, e, _⟩ := z1 hg; exact ⟨s, e⟩
              | some s0 =>
                cases hp : s0.isPublic with
                | true => exact ⟨_, z2 s0 hg hp⟩
                | false => obtain ⟨n, k, e, _⟩ := z3 s0 hg hp; exact ⟨_, e⟩
            obtain ⟨s1, hs1⟩ := this
            cases hp : s1.isPublic with
            | true => rcases i4 _ _ hs1 hp with e | e <;> rw [e] <;> simp
            | false => obtain ⟨n, k, e, _⟩ := i3 _ _ hs1 hp; rw [e]; simp
        · exact i6 q hq hnc
      · intro a hin
        have h1 := i7 a (fill.inside' hin)
        exact ⟨h1.1, fun hn => h1.2 (fill.free hin hn)⟩

/-- **C15, no failure.** Adding public symbols fails only for a name without an undecorated form (C42): never for other
platforms than Windows. -/
theorem C15_publics_total (env : CEnv) (pl : Platform) (ps : List Public) (m : Symbols)
    (h : pl = .win → ∀ p ∈ ps, ∀ n, p.name = some n → ∃ base size, Undecorated n base size) :
    ∃ m', collectPublics env pl ps m = .ok m' := by
  induction ps generalizing m with
  | nil => exact ⟨m, rfl⟩
  | cons p ps ih =>
    have hw : ∃ w, winName pl p.name = .ok w := by
      unfold winName
      by_cases hpl : pl = .win
      · rw [if_pos hpl]
        cases hn : p.name with
        | none => exact ⟨none, rfl⟩
        | some n =>
          obtain ⟨b, z, hw⟩ := h hpl p (by simp) n hn
          exact ⟨some ⟨b, z⟩, by simp [(C41_decorated n b z).mpr hw]⟩
      · rw [if_neg hpl]; exact ⟨none, rfl⟩
    obtain ⟨w, hw⟩ := hw
    have : ∃ m1, collectPublic env pl p m = .ok m1 := by
      unfold collectPublic
      by_cases h1 : m.isInsideSymbol (u32 p.address) = true
      · exact ⟨m, if_pos h1⟩
      · rw [if_neg h1]
        by_cases h2 : p.skipped = true
        · exact ⟨m, if_pos h2⟩
        · rw [if_neg h2, hw]
          exact ⟨_, rfl⟩
    obtain ⟨m1, hm1⟩ := this
    obtain ⟨m', hm'⟩ := ih m1 (fun hpl q hq => h hpl q (by simp [hq]))
    exact ⟨m', by simp [collectPublics, hm1, hm']⟩

/-- **C16.** After adding placeholder functions for any list of exception entries: every existing symbol is unchanged; a
new symbol is a FUNC marked synthetic, without records, with exactly the extent of some entry, and it is not inside the
symbol that was closest before it; every entry whose end does not precede its start has a symbol at its start or starts
inside the closest preceding symbol. -/
theorem C16_placeholders (name : Str) (es : List ExcEntry) (m : Symbols) (hs : m.Sorted) (hk : Keyed m)
    (he : ∀ e ∈ es, e.begin < M32 ∧ e.stop < M32) :
    (collectPlaceholders name es m).Sorted ∧ Keyed (collectPlaceholders name es m) ∧
    (∀ a s, m.get? a = some s → (collectPlaceholders name es m).get? a = some s) ∧
    (∀ a s, m.get? a = none → (collectPlaceholders name es m).get? a = some s →
      ¬ InsideClosest m a ∧ s.isPublic = false ∧ s.isSynthetic = true ∧ s.isMultiple = false ∧ s.NoRecords ∧
      s.name = (if name = [] then str% "<unknown>" else str% "<unknown in " ++ name ++ str% ">") ∧ s.parameterSize = 0 ∧
      ∃ e ∈ es, e.begin = a ∧ e.stop = a + s.len) ∧
    (∀ e ∈ es, e.begin ≤ e.stop → (collectPlaceholders name es m).get? e.begin ≠ none ∨
      InsideClosest (collectPlaceholders name es m) e.begin) ∧
    (∀ a, InsideClosest m a → InsideClosest (collectPlaceholders name es m) a) := by
  induction es generalizing m with
  | nil =>
    refine ⟨hs, hk, fun a s h => h, ?_, by simp, fun a h => h⟩
    intro a s h1 h2; simp only [collectPlaceholders] at h2; rw [h1] at h2; cases h2
  | cons e es ih =>
    have hb := he e (by simp)
    have fill : FillStep m (collectPlaceholder name e m) e.begin ∧
        (∀ a s, m.get? a = some s → (collectPlaceholder name e m).get? a = some s) ∧
        (m.get? e.begin = none → ∀ s, (collectPlaceholder name e m).get? e.begin = some s →
          s = placeholder name e (e.stop - e.begin) ∧ e.begin ≤ e.stop) ∧
        (e.begin ≤ e.stop → (collectPlaceholder name e m).get? e.begin ≠ none ∨ InsideClosest m e.begin) := by
      unfold collectPlaceholder checkedSub
      by_cases hle : e.begin ≤ e.stop
      · rw [if_pos hle]
        simp only
        by_cases hi : m.isInsideSymbol e.begin = true
        · rw [if_pos hi]
          refine ⟨⟨hs, hk, fun _ _ => rfl, fun s h => ⟨s, h, rfl⟩, fun a b => absurd a b⟩, fun _ _ h => h, ?_, ?_⟩
          · intro h s h'; rw [h] at h'; cases h'
          · intro _; exact .inr ((isInsideSymbol_iff hs hk).mp hi)
        · rw [if_neg hi]
          have hni : ¬ InsideClosest m e.begin := fun hc => hi ((isInsideSymbol_iff hs hk).mpr hc)
          refine ⟨⟨orInsert_sorted hs .., hk.orInsert hs rfl hb.1 (by show e.stop - e.begin < M32; omega), ?_, ?_,
            fun _ _ => hni⟩, ?_, ?_, ?_⟩
          · intro b hbe; rw [get?_orInsert hs, if_neg (fun x => hbe x.symm)]
          · intro s hg; exact ⟨s, by rw [get?_orInsert hs, if_pos rfl, hg]; rfl, rfl⟩
          · intro a s hg
            rw [get?_orInsert hs]
            split
            · rename_i h; subst h; rw [hg]; rfl
            · exact hg
          · intro hn s hg
            rw [get?_orInsert hs, if_pos rfl, hn] at hg
            cases hg; exact ⟨rfl, hle⟩
          · intro _; left; rw [get?_orInsert hs, if_pos rfl]; simp
      · rw [if_neg hle]
        refine ⟨⟨hs, hk, fun _ _ => rfl, fun s h => ⟨s, h, rfl⟩, fun a b => absurd a b⟩, fun _ _ h => h, ?_, ?_⟩
        · intro h s h'; rw [h] at h'; cases h'
        · intro h; exact absurd h hle
    obtain ⟨fill, keep, new, cov⟩ := fill
    rw [show collectPlaceholders name (e :: es) m = collectPlaceholders name es (collectPlaceholder name e m) from rfl]
    obtain ⟨i1, i2, i3, i4, i5, i6⟩ := ih _ fill.sorted fill.keyed (fun e he' => he e (by simp [he']))
    refine ⟨i1, i2, fun a s h => i3 a s (keep a s h), ?_, ?_, fun a h => i6 a (fill.inside' h)⟩
    · intro a s hn hg
      cases h1 : (collectPlaceholder name e m).get? a with
      | none =>
        obtain ⟨x1, x2, x3, x4, x5, x6, x6', q, hq, x7⟩ := i4 a s h1 hg
        exact ⟨fun hc => x1 (fill.inside' hc), x2, x3, x4, x5, x6, x6', q, by simp [hq], x7⟩
      | some s1 =>
        have ha : a = e.begin := by
          apply Classical.byContradiction
          intro ha
          rw [fill.other a ha, hn] at h1; cases h1
        subst ha
        rw [i3 _ _ h1] at hg; cases hg
        obtain ⟨rfl, hle⟩ := new hn s h1
        refine ⟨fill.new hn (by rw [h1]; simp), rfl, rfl, rfl, ⟨rfl, rfl⟩, rfl, rfl, e, by simp, rfl, ?_⟩
        show e.stop = e.begin + (e.stop - e.begin)
        omega
    · intro q hq hle
      rcases List.mem_cons.mp hq with rfl | hq
      · rcases cov hle with h | h
        · left
          cases h1 : (collectPlaceholder name q m).get? q.begin with
          | none => exact absurd h1 h
          | some s1 => rw [i3 _ _ h1]; simp
        · exact .inr (i6 _ (fill.inside' h))
      · exact i5 q hq hle

/-- **C17, sections.** Adding the symbols of executable ELF sections changes no existing symbol, gives every executable
section a symbol at its address, and every new symbol is a PUBLIC marked synthetic, of length 0, for an executable
section. -/
theorem C17_sections (name : Str) (hds : List Section) (m : Symbols) (hs : m.Sorted) :
    (m.addExecutableSectionSymbols name (.elf hds)).Sorted ∧
    (Keyed m → Keyed (m.addExecutableSectionSymbols name (.elf hds))) ∧
    (∀ a s, m.get? a = some s → (m.addExecutableSectionSymbols name (.elf hds)).get? a = some s) ∧
    (∀ h ∈ hds, h.executable = true → (m.addExecutableSectionSymbols name (.elf hds)).get? (u32 h.addr) ≠ none) ∧
    (∀ a s, m.get? a = none → (m.addExecutableSectionSymbols name (.elf hds)).get? a = some s →
      s.isPublic = true ∧ s.isSynthetic = true ∧ s.isMultiple = false ∧ s.rva = a ∧ s.len = 0 ∧ s.NoRecords ∧ s.parameterSize = 0 ∧
      ∃ h ∈ hds, h.executable = true ∧ u32 h.addr = a ∧
        s.name = str% "<" ++ h.name.getD (str% "unknown") ++ str% " ELF section in " ++
          (if name = [] then str% "unknown" else name) ++ str% ">") := by
  simp only [addExecutableSectionSymbols]
  induction hds generalizing m with
  | nil =>
    refine ⟨hs, fun h => h, fun _ _ h => h, by simp, ?_⟩
    intro a s h1 h2; simp only [addSections] at h2; rw [h1] at h2; cases h2
  | cons h hds ih =>
    unfold addSections
    by_cases hx : h.executable = true
    · rw [if_pos hx]
      obtain ⟨i1, i2, i3, i4, i5⟩ := ih (m.orInsert (u32 h.addr) (sectionSymbol name h)) (orInsert_sorted hs ..)
      have keep : ∀ a s, m.get? a = some s → (m.orInsert (u32 h.addr) (sectionSymbol name h)).get? a = some s := by
        intro a s hg
        rw [get?_orInsert hs]
        split
        · rename_i e; subst e; rw [hg]; rfl
        · exact hg
      refine ⟨i1, fun hk => i2 (hk.orInsert hs rfl (u32_lt _) (show 0 < M32 by decide)), fun a s hg => i3 a s (keep a s hg), ?_, ?_⟩
      · intro q hq hqx
        rcases List.mem_cons.mp hq with rfl | hq
        · have : (m.orInsert (u32 q.addr) (sectionSymbol name q)).get? (u32 q.addr) =
              some ((m.get? (u32 q.addr)).getD (sectionSymbol name q)) := by rw [get?_orInsert hs, if_pos rfl]
          rw [i3 _ _ this]; simp
        · exact i4 q hq hqx
      · intro a s hn hg
        cases h1 : (m.orInsert (u32 h.addr) (sectionSymbol name h)).get? a with
        | none =>
          obtain ⟨x1, x2, x3, x4, x5, x6, x6', q, hq, x7⟩ := i5 a s h1 hg
          exact ⟨x1, x2, x3, x4, x5, x6, x6', q, by simp [hq], x7⟩
        | some s1 =>
          rw [i3 _ _ h1] at hg; cases hg
          rw [get?_orInsert hs] at h1
          split at h1
          · rename_i e; subst e
            rw [hn] at h1; cases h1
            exact ⟨rfl, rfl, rfl, rfl, rfl, ⟨rfl, rfl⟩, rfl, h, by simp, hx, rfl, rfl⟩
          · rw [hn] at h1; cases h1
    · rw [if_neg hx]
      obtain ⟨i1, i2, i3, i4, i5⟩ := ih m hs
      refine ⟨i1, i2, i3, ?_, ?_⟩
      · intro q hq hqx
        rcases List.mem_cons.mp hq with rfl | hq
        · exact absurd hqx hx
        · exact i4 q hq hqx
      · intro a s hn hg
        obtain ⟨x1, x2, x3, x4, x5, x6, x6', q, hq, x7⟩ := i5 a s hn hg
        exact ⟨x1, x2, x3, x4, x5, x6, x6', q, by simp [hq], x7⟩

/-- Where the end-of-module symbol goes: the end of the symbol with the highest address, one past its start when its
length is 0. -/
def IsEnd (m : Symbols) (e : Nat) : Prop :=
  ∃ a s, m.get? a = some s ∧ (∀ b t, m.get? b = some t → b ≤ a) ∧
    e = (if s.len = 0 then a + 1 else a + s.len)

/-- **C17, end of module.** For PE and PDB files: no existing symbol is changed; nothing is added to an empty map;
otherwise, with `e` the end of the last symbol (below 2^32), there is a symbol at `e`, and it is the only address where a
symbol may have been added, a PUBLIC marked synthetic of length 0. -/
theorem C17_end_of_module (name : Str) (k : ObjKind) (hkind : k = .pe ∨ k = .pdb) (m : Symbols) (hs : m.Sorted)
    (hk : Keyed m) :
    (m.addExecutableSectionSymbols name k).Sorted ∧
    Keyed (m.addExecutableSectionSymbols name k) ∧
    (∀ a s, m.get? a = some s → (m.addExecutableSectionSymbols name k).get? a = some s) ∧
    (m = [] → m.addExecutableSectionSymbols name k = []) ∧
    (∀ e, IsEnd m e → e < M32 →
      m.get? e = none ∧
      (∀ a, a ≠ e → (m.addExecutableSectionSymbols name k).get? a = m.get? a) ∧
      ∃ s, (m.addExecutableSectionSymbols name k).get? e = some s ∧
        s.isPublic = true ∧ s.isSynthetic = true ∧ s.isMultiple = false ∧ s.rva = e ∧ s.len = 0 ∧ s.NoRecords ∧
        s.parameterSize = 0 ∧ s.name = (if name = [] then str% "<unknown>" else str% "<unknown in " ++ name ++ str% ">")) := by
  have hap : m.addExecutableSectionSymbols name k = m.appendDummy name := by
    rcases hkind with rfl | rfl <;> rfl
  rw [hap]
  unfold appendDummy
  cases hl : m.getLast? with
  | none =>
    simp only
    rw [List.getLast?_eq_none_iff] at hl
    subst hl
    refine ⟨hs, hk, fun _ _ h => h, id, ?_⟩
    rintro e ⟨a, s, h, _⟩; cases h
  | some last =>
    obtain ⟨a, s⟩ := last
    simp only
    have hmem : (a, s) ∈ m := List.mem_of_getLast? hl
    have hg : m.get? a = some s := SMap.get?_of_mem hs hmem
    obtain ⟨k1, k2, k3⟩ := hk a s hg
    have hmax : ∀ b t, m.get? b = some t → b ≤ a := by
      intro b t hb
      have := (getLast?_filter_sorted (sorted_lt hs) (fun _ => true) (e := (a, s)) (by rw [List.filter_eq_self.mpr (by simp)]; exact hl)).2.2 (b, t)
        (SMap.mem_of_get? hb) rfl
      exact this
    have hsort : ∀ v w, (m.orInsert v w).Sorted := fun v w => orInsert_sorted hs ..
    refine ⟨hsort _ _, ?_, ?_, ?_, ?_⟩
    · refine Keyed.orInsert hs hk rfl ?_ (show 0 < M32 by decide)
      split <;> exact wadd_lt ..
    · intro b t hb
      rw [get?_orInsert hs]
      generalize (if s.len = 0 then wadd s.rva 1 else wadd s.rva s.len) = x
      by_cases e : x = b
      · rw [if_pos e, e, hb]; rfl
      · rw [if_neg e]; exact hb
    · intro h; subst h; cases hl
    · rintro e ⟨a', s', h1, h2, h3⟩ he
      have haa : a' = a := Nat.le_antisymm (hmax _ _ h1) (h2 _ _ hg)
      subst haa
      rw [hg] at h1; cases h1
      have hrva : (if s.len = 0 then wadd s.rva 1 else wadd s.rva s.len) = e := by
        rw [k1, h3]
        split
        · rename_i h0; rw [if_pos h0] at h3; exact wadd_of_lt (by omega)
        · rename_i h0; rw [if_neg h0] at h3; exact wadd_of_lt (by omega)
      have hea : a' < e := by
        rw [h3]; split <;> omega
      have hnone : m.get? e = none := by
        cases hc : m.get? e with
        | none => rfl
        | some t => have := hmax _ _ hc; omega
      rw [hrva]
      refine ⟨hnone, ?_, ?_⟩
      · intro b hb
        rw [get?_orInsert hs, if_neg (fun x => hb x.symm)]
      · rw [get?_orInsert hs, if_pos rfl, hnone]
        exact ⟨_, rfl, rfl, rfl, rfl, rfl, rfl, ⟨rfl, rfl⟩, rfl, rfl⟩

/-! ## Examples -/

def symSample (pub : Bool) (a len : Nat) (name : Str) : Symbol :=
  { name, isPublic := pub, isMultiple := false, isSynthetic := false, rva := a, len, parameterSize := 0,
    source := Lines.default }

def symEnv : CEnv :=
  { src := ⟨.linux, false, fun _ => none, fun _ => none, fun _ => false⟩, dm := fun _ => none, detect := fun _ => .unknown, us := id }

/-- A FUNC at 0x1000, a PUBLIC at 0x2000. -/
def symMap : Symbols := [(0x1000, symSample false 0x1000 0x20 (str% "f")), (0x2000, symSample true 0x2000 0x10 (str% "g"))]

theorem symMap_sorted : symMap.Sorted := by
  unfold symMap SMap.Sorted; simp

theorem symMap_keyed : Keyed symMap := by
  intro a s h
  have := SMap.mem_of_get? h
  simp [symMap] at this
  rcases this with ⟨rfl, rfl⟩ | ⟨rfl, rfl⟩ <;> decide

/-- Publics inside and at the start of the function, at the public's address, a constant, in a hole, and twice in a
hole. -/
def symPublics : List Public :=
  [⟨some (str% "in"), 0x1010, 0⟩, ⟨some (str% "f"), 0x1000, 0⟩, ⟨some (str% "g2"), 0x2000, 0⟩,
   ⟨some (str% "__real@3f80"), 0x1800, 8⟩, ⟨some (str% "h"), 0x1900, 4⟩, ⟨some (str% "h2"), 0x1900, 4⟩, ⟨none, 0x1902, 1⟩]

example : ∃ m', collectPublics symEnv .linux symPublics symMap = .ok m' ∧
    m'.map (fun e => (e.1, e.2.isPublic, e.2.isMultiple, e.2.len)) =
      [(0x1000, false, false, 0x20), (0x1900, true, true, 4), (0x2000, true, true, 0x10)] := ⟨_, rfl, by decide⟩

/-- On Windows a FUNC takes the parameter size (and, without parenthesis, the name) of the decorated public at its address. -/
example : ∃ m', collectPublics symEnv .win [⟨some (str% "_foo@12"), 0x1000, 0⟩, ⟨some (str% "bar@@8"), 0x1900, 4⟩] symMap = .ok m' ∧
    m'.map (fun e => (e.1, e.2.isPublic, e.2.name, e.2.parameterSize)) =
      [(0x1000, false, str% "foo", 12), (0x1900, true, str% "bar", 8), (0x2000, true, str% "g", 0)] := ⟨_, rfl, by decide⟩

/-- The hypothesis of `C15_publics_total` on Windows. -/
example : ∃ m', collectPublics symEnv .win [⟨some (str% "_foo@12"), 0x1000, 0⟩, ⟨none, 0x1900, 4⟩] symMap = .ok m' :=
  C15_publics_total _ _ _ _ fun _ p hp n hn => by
    rcases List.mem_cons.mp hp with rfl | hp
    · cases hn; exact ⟨_, _, (C41_decorated _ (str% "foo") (some 12)).mp (by decide)⟩
    · rcases List.mem_cons.mp hp with rfl | hp
      · cases hn
      · cases hp

example : (collectPlaceholders (str% "a.dll")
      [⟨0x1010, 0x1018⟩, ⟨0x1000, 0x1020⟩, ⟨0x1800, 0x1700⟩, ⟨0x1800, 0x1810⟩] symMap).map
      (fun e => (e.1, e.2.isPublic, e.2.isSynthetic, e.2.len)) =
    [(0x1000, false, false, 0x20), (0x1800, false, true, 0x10), (0x2000, true, false, 0x10)] := by decide

example : (symMap.addExecutableSectionSymbols (str% "m")
      (.elf [⟨some (str% ".text"), 0x1000, true, 0, 0⟩, ⟨some (str% ".data"), 0x3000, false, 0, 0⟩, ⟨none, 0x800, true, 0, 0⟩])).map (·.1) =
    [0x800, 0x1000, 0x2000] := by decide

example : IsEnd symMap 0x2010 ∧ (symMap.addExecutableSectionSymbols [] .pe).map (·.1) = [0x1000, 0x2000, 0x2010] := by
  refine ⟨⟨0x2000, _, rfl, ?_, rfl⟩, by decide⟩
  intro b t h
  have := SMap.mem_of_get? h
  simp [symMap] at this
  omega

/-- The end of a symbol that reaches 2^32 wraps around: a public inside it is added although it lies inside. -/
theorem C15_wrap_witness :
    let m : Symbols := [(0xFFFFFF00, symSample false 0xFFFFFF00 0x100 (str% "last"))]
    ∃ m', collectPublics symEnv .linux [⟨some (str% "p"), 0xFFFFFF10, 0⟩] m = .ok m' ∧
      m'.map (·.1) = [0xFFFFFF00, 0xFFFFFF10] := ⟨_, rfl, by decide⟩

end DumpSyms
