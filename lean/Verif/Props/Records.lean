import Verif.Spec.Records
import Verif.Props.Symbolicate
import Verif.Props.Embedded
/-!
# C82: where the FUNC and PUBLIC records of a dump come from
-/
namespace DumpSyms
open Collector ObjectInfo Symbols Reader

section publics
variable {env : CEnv} {pl : Platform} {main : ObjInput} {fs : List (Option Func)} {name : Str} {peName : Option Str} {M : Symbols}

/-- What is true after some public symbols have been added. -/
structure PubInv (env : CEnv) (pl : Platform) (main : ObjInput) (fs : List (Option Func)) (name : Str) (peName : Option Str) (M : Symbols)
    (ps : List Public) (m : Symbols) : Prop where
  sorted : m.Sorted
  keyed : Keyed m
  plain : ∀ a s, m.get? a = some s → s.isPublic = true → s.isSynthetic = false
  from_ : ∀ a s, m.get? a = some s → StandsFor env pl main fs ps name peName M a s
  functions : ∀ a, funcsAt fs a ≠ [] → m.get? a ≠ none
  publics : ∀ p ∈ ps, ¬ p.IsConstant → m.get? (u32 p.address) ≠ none ∨ InsideClosest m (u32 p.address)

theorem FuncName.more {ps qs : List Public} {a : Nat} {own n : Str} (h : FuncName env pl ps a own n) :
    FuncName env pl (ps ++ qs) a own n := by
  rcases h with h | ⟨h1, h2, p, h3, h4⟩
  · exact .inl h
  · exact .inr ⟨h1, h2, p, by simp [h3], h4⟩

theorem FuncParams.more {ps qs : List Public} {a k : Nat} (h : FuncParams pl ps a k) : FuncParams pl (ps ++ qs) a k := by
  rcases h with h | ⟨h1, p, h3, h4⟩
  · exact .inl h
  · exact .inr ⟨h1, p, by simp [h3], h4⟩

theorem StandsFor.more {ps qs : List Public} {a : Nat} {s : Symbol} (h : StandsFor env pl main fs ps name peName M a s) :
    StandsFor env pl main fs (ps ++ qs) name peName M a s := by
  cases h with
  | function f rest own h1 h2 h3 h4 h5 h6 h7 h8 => exact .function f rest own h1 h2 h3 h4 h5 h6 h7.more h8.more
  | entry es e h1 h2 h3 h4 h5 h6 h7 h8 h9 h10 h11 h12 => exact .entry es e h1 h2 h3 h4 h5 h6 h7 h8 h9 h10 h11.more h12.more
  | pub before p after h1 h2 h3 h4 h5 h6 h7 h8 h9 h10 =>
    refine .pub before p (after ++ qs) (by rw [h1]; simp) h2 h3 h4 h5 h6 h7 h8 h9 ?_
    intro hm
    obtain ⟨q, hq, hq'⟩ := h10 hm
    exact ⟨q, by simp [hq], hq'⟩
  | «section» before h after h1 h2 h3 h4 h5 h6 h7 h8 h9 h10 => exact .section before h after h1 h2 h3 h4 h5 h6 h7 h8 h9 h10
  | stop h1 h2 h3 h4 h5 h6 h7 h8 => exact .stop h1 h2 h3 h4 h5 h6 h7 h8

theorem FuncName.step {ps : List Public} {p : Public} {own n n' : Str} (h : FuncName env pl ps (u32 p.address) own n)
    (hc : ¬ p.IsConstant) (hk : '(' ∈ n → n' = n) (hn : pl ≠ .win ∨ p.name = none → n' = n)
    (hw : pl = .win → ∀ q base size, p.name = some q → Undecorated q base size → '(' ∉ n → PublicName env.dm env.detect base n')
    (hu : pl = .win → ∀ q, p.name = some q → ∃ base size, Undecorated q base size) :
    FuncName env pl (ps ++ [p]) (u32 p.address) own n' := by
  by_cases hb : '(' ∈ n
  · rw [hk hb]; exact h.more
  · by_cases hpl : pl = .win
    · cases hq : p.name with
      | none => rw [hn (.inr hq)]; exact h.more
      | some q =>
        obtain ⟨base, size, hv⟩ := hu hpl q hq
        refine .inr ⟨hpl, ?_, p, by simp, ⟨rfl, hc⟩, q, base, size, hq, hv, hw hpl q base size hq hv hb⟩
        rcases h with h | h
        · rw [← h]; exact hb
        · exact h.2.1
    · rw [hn (.inl hpl)]; exact h.more

theorem FuncParams.step {ps : List Public} {p : Public} {k k' : Nat} (h : FuncParams pl ps (u32 p.address) k)
    (hc : ¬ p.IsConstant) (hn : pl ≠ .win ∨ p.name = none → k' = k)
    (hw : pl = .win → ∀ q base size, p.name = some q → Undecorated q base size → k' = size.getD k)
    (hu : pl = .win → ∀ q, p.name = some q → ∃ base size, Undecorated q base size) :
    FuncParams pl (ps ++ [p]) (u32 p.address) k' := by
  by_cases hpl : pl = .win
  · cases hq : p.name with
    | none => rw [hn (.inr hq)]; exact h.more
    | some q =>
      obtain ⟨base, size, hv⟩ := hu hpl q hq
      have := hw hpl q base size hq hv
      cases size with
      | none => rw [this]; exact h.more
      | some z => simp only [Option.getD_some] at this; subst this; exact .inr ⟨hpl, p, by simp, ⟨rfl, hc⟩, q, base, hq, hv⟩
  · rw [hn (.inl hpl)]; exact h.more

theorem collectPublic_undecorated {p : Public} {m m' : Symbols} (hs : m.Sorted) (hk : Keyed m)
    (h : collectPublic env pl p m = .ok m') (hc : ¬ p.IsConstant) (hi : ¬ InsideClosest m (u32 p.address)) :
    pl = .win → ∀ q, p.name = some q → ∃ base size, Undecorated q base size := by
  intro hpl q hq
  rcases collectPublic_cases hs hk h with ⟨_, h⟩ | ⟨_, _, w, hw, _⟩
  · exact (h.elim hc hi).elim
  · unfold winName at hw
    rw [if_pos hpl, hq] at hw
    cases hv : WinName.parseUnknown q with
    | ok v => exact ⟨v.name, v.paramSize, (C41_decorated q v.name v.paramSize).mp (by rw [hv])⟩
    | err e => simp [hv] at hw
    | panic => simp [hv] at hw

theorem PubInv.step {ps : List Public} {p : Public} {m m' : Symbols} (h : PubInv env pl main fs name peName M ps m)
    (hc : collectPublic env pl p m = .ok m') : PubInv env pl main fs name peName M (ps ++ [p]) m' := by
  obtain ⟨o1, o2, o3⟩ := C15_one_public env pl p m m' h.sorted h.keyed hc
  have fill := collectPublic_fill h.sorted h.keyed hc
  by_cases hcc : p.IsConstant ∨ InsideClosest m (u32 p.address)
  · rw [o2 hcc]
    refine ⟨h.sorted, h.keyed, h.plain, fun a s hg => (h.from_ a s hg).more, h.functions, ?_⟩
    intro q hq hn
    rcases List.mem_append.mp hq with hq | hq
    · exact h.publics q hq hn
    · cases List.mem_singleton.mp hq
      exact .inr (hcc.resolve_left hn)
  · have hc1 : ¬ p.IsConstant := fun x => hcc (.inl x)
    have hc2 : ¬ InsideClosest m (u32 p.address) := fun x => hcc (.inr x)
    obtain ⟨v1, v2, v3⟩ := o3 hc1 hc2
    have hu := collectPublic_undecorated h.sorted h.keyed hc hc1 hc2
    have some' : m'.get? (u32 p.address) ≠ none := by
      cases hg : m.get? (u32 p.address) with
      | none => obtain ⟨s, e, _⟩ := v1 hg; rw [e]; simp
      | some s =>
        cases hp : s.isPublic with
        | true => rw [v2 s hg hp]; simp
        | false => obtain ⟨n, k, e, _⟩ := v3 s hg hp; rw [e]; simp
    have grow : ∀ b, m.get? b ≠ none → m'.get? b ≠ none := by
      intro b hb
      by_cases hba : b = u32 p.address
      · subst hba; exact some'
      · rw [o1 b hba]; exact hb
    refine ⟨fill.sorted, fill.keyed, ?_, ?_, fun a ha => grow a (h.functions a ha), ?_⟩
    · intro a s hg hp
      by_cases ha : a = u32 p.address
      · subst ha
        cases hg0 : m.get? (u32 p.address) with
        | none =>
          obtain ⟨t, e, _, _, e', _⟩ := v1 hg0
          rw [hg] at e; cases e; exact e'
        | some s0 =>
          cases hp0 : s0.isPublic with
          | true =>
            have e := v2 s0 hg0 hp0
            rw [hg] at e; cases e
            exact (h.plain _ s0 hg0 hp0 :)
          | false =>
            obtain ⟨n, k, e, _⟩ := v3 s0 hg0 hp0
            rw [hg] at e; cases e
            rw [hp0] at hp; cases hp
      · rw [o1 a ha] at hg; exact h.plain a s hg hp
    · intro a s hg
      by_cases ha : a = u32 p.address
      · subst ha
        cases hg0 : m.get? (u32 p.address) with
        | none =>
          obtain ⟨t, e, t1, t2, t3, t4, t5, t6, t7, t8⟩ := v1 hg0
          rw [hg] at e; cases e
          refine .pub ps p [] rfl ⟨rfl, hc1⟩ ?_ ?_ t1 t3 t5 t6 ?_ ?_
          · rintro q hq ⟨hq1, hq2⟩
            have := h.publics q hq hq2
            rw [hq1] at this
            exact this.elim (fun x => x hg0) hc2
          · apply Classical.byContradiction
            intro hf
            exact h.functions _ hf hg0
          · refine ⟨fun hn => ?_, fun n hn => ⟨fun hw => ?_, fun hw base size hv => t8 hw n base size hn hv⟩⟩
            · obtain ⟨u1, u2, _⟩ := t7 (.inr hn); exact ⟨u2 hn, u1⟩
            · obtain ⟨u1, _, u3⟩ := t7 (.inl hw); exact ⟨u3 n hn, u1⟩
          · intro hm; rw [t2] at hm; cases hm
        | some s0 =>
          have hf := h.from_ _ _ hg0
          cases hp0 : s0.isPublic with
          | true =>
            have e := v2 s0 hg0 hp0
            rw [hg] at e; cases e
            have hpl := h.plain _ _ hg0 hp0
            cases hf with
            | function f rest own h1 h2 => rw [hp0] at h2; cases h2
            | entry es e h1 h2 h3 h4 h5 h6 h7 => rw [hp0] at h7; cases h7
            | pub before q after h1 h2 h3 h4 h5 h6 h7 h8 h9 h10 =>
              exact .pub before q (after ++ [p]) (by rw [h1]; simp) h2 h3 h4 h5 h6 h7 h8 h9
                (fun _ => ⟨p, by simp, rfl, hc1⟩)
            | «section» before h after h1 h2 h3 h4 h5 h6 => rw [hpl] at h6; cases h6
            | stop h1 h2 h3 h4 => rw [hpl] at h4; cases h4
          | false =>
            obtain ⟨n, k, e, e1, e2, e3⟩ := v3 s0 hg0 hp0
            rw [hg] at e; cases e
            have q1 : ∀ own, FuncName env pl ps (u32 p.address) own s0.name → FuncName env pl (ps ++ [p]) (u32 p.address) own n :=
              fun own ho => ho.step hc1 e1 (fun x => (e2 x).1) (fun x q base size y z => (e3 x q base size y z).1) hu
            have q2 : FuncParams pl ps (u32 p.address) s0.parameterSize → FuncParams pl (ps ++ [p]) (u32 p.address) k :=
              fun ho => ho.step hc1 (fun x => (e2 x).2) (fun x q base size y z => (e3 x q base size y z).2) hu
            cases hf with
            | function f rest own h1 h2 h3 h4 h5 h6 h7 h8 => exact .function f rest own h1 h2 h3 h4 h5 h6 (q1 _ h7) (q2 h8)
            | entry es e h1 h2 h3 h4 h5 h6 h7 h8 h9 h10 h11 h12 =>
              exact .entry es e h1 h2 h3 h4 h5 h6 h7 h8 h9 h10 (q1 _ h11) (q2 h12)
            | pub before p after h1 h2 h3 h4 h5 => rw [hp0] at h5; cases h5
            | «section» before h after h1 h2 h3 h4 h5 => rw [hp0] at h5; cases h5
            | stop h1 h2 h3 => rw [hp0] at h3; cases h3
      · rw [o1 a ha] at hg; exact (h.from_ a s hg).more
    · intro q hq hn
      rcases List.mem_append.mp hq with hq | hq
      · rcases h.publics q hq hn with h | h
        · exact .inl (grow _ h)
        · exact .inr (fill.inside' h)
      · cases List.mem_singleton.mp hq
        exact .inl some'

theorem PubInv.all {qs ps : List Public} {m m' : Symbols} (h : PubInv env pl main fs name peName M ps m)
    (hc : collectPublics env pl qs m = .ok m') : PubInv env pl main fs name peName M (ps ++ qs) m' := by
  induction qs generalizing ps m with
  | nil => cases hc; simpa using h
  | cons q qs ih =>
    unfold collectPublics at hc
    cases h1 : collectPublic env pl q m with
    | err e => rw [h1] at hc; cases hc
    | panic => rw [h1] at hc; cases hc
    | ok m1 =>
      rw [h1] at hc
      have := ih (h.step h1) hc
      simpa using this

/-- Adding the symbols of sections. -/
theorem sections_from {hds : List Section} {m : Symbols} (hs : m.Sorted) :
    ∀ a s, m.get? a = none → (m.addExecutableSectionSymbols name (.elf hds)).get? a = some s →
      ∃ before h after, hds = before ++ h :: after ∧ h.executable = true ∧ u32 h.addr = a ∧
        (∀ k ∈ before, k.executable = true → u32 k.addr ≠ a) ∧ s = sectionSymbol name h := by
  simp only [addExecutableSectionSymbols]
  induction hds generalizing m with
  | nil => intro a s h1 h2; simp only [addSections] at h2; rw [h1] at h2; cases h2
  | cons h hds ih =>
    intro a s hn hg
    unfold addSections at hg
    have keep : ∀ {m : Symbols}, m.Sorted → ∀ a s, m.get? a = some s → (addSections name hds m).get? a = some s := by
      intro m hm a s h
      exact (C17_sections name hds m hm).2.2.1 a s h
    by_cases hx : h.executable = true
    · rw [if_pos hx] at hg
      have hso := orInsert_sorted hs (k := u32 h.addr) (v := sectionSymbol name h)
      by_cases ha : u32 h.addr = a
      · have : (m.orInsert (u32 h.addr) (sectionSymbol name h)).get? a = some (sectionSymbol name h) := by
          rw [get?_orInsert hs, if_pos ha, ha, hn]; rfl
        rw [keep hso a _ this] at hg
        cases hg
        exact ⟨[], h, hds, rfl, hx, ha, by simp, rfl⟩
      · have : (m.orInsert (u32 h.addr) (sectionSymbol name h)).get? a = none := by
          rw [get?_orInsert hs, if_neg ha, hn]
        obtain ⟨b, k, c, rfl, e2, e3, e4, e5⟩ := ih hso a s this hg
        refine ⟨h :: b, k, c, rfl, e2, e3, ?_, e5⟩
        intro q hq hqx
        rcases List.mem_cons.mp hq with rfl | hq
        · exact ha
        · exact e4 q hq hqx
    · rw [if_neg hx] at hg
      obtain ⟨b, k, c, rfl, e2, e3, e4, e5⟩ := ih hs a s hn hg
      refine ⟨h :: b, k, c, rfl, e2, e3, ?_, e5⟩
      intro q hq hqx
      rcases List.mem_cons.mp hq with rfl | hq
      · exact absurd hqx hx
      · exact e4 q hq hqx

end publics

/-- Adding the end-of-module symbol. -/
theorem stop_from {name : Str} {k : ObjKind} (hk : k = .pe ∨ k = .pdb) {m : Symbols} (hs : m.Sorted) (hm : Keyed m) :
    (∀ a s, m.get? a = none → (m.addExecutableSectionSymbols name k).get? a = some s →
      IsModuleEnd (m.addExecutableSectionSymbols name k) a ∧ s.isPublic = true ∧ s.isSynthetic = true ∧ s.isMultiple = false ∧
        s.NoRecords ∧ s.parameterSize = 0 ∧ s.name = UnknownIn name) ∧
    (m ≠ [] → ∃ a, IsModuleEnd (m.addExecutableSectionSymbols name k) a ∧
      (m.addExecutableSectionSymbols name k).get? a ≠ none) := by
  have hap : m.addExecutableSectionSymbols name k = m.appendDummy name := by rcases hk with rfl | rfl <;> rfl
  rw [hap]
  unfold appendDummy
  cases hl : m.getLast? with
  | none =>
    simp only
    rw [List.getLast?_eq_none_iff] at hl
    subst hl
    exact ⟨(fun a s _ h => by cases h), fun h => absurd rfl h⟩
  | some last =>
    obtain ⟨b, t⟩ := last
    simp only
    have hmem : (b, t) ∈ m := List.mem_of_getLast? hl
    have hg : m.get? b = some t := SMap.get?_of_mem hs hmem
    obtain ⟨k1, k2, k3⟩ := hm b t hg
    have hmax : ∀ c x, m.get? c = some x → c ≤ b := by
      intro c x hc
      exact (getLast?_filter_sorted (sorted_lt hs) (fun _ => true) (e := (b, t)) (by rw [List.filter_eq_self.mpr (by simp)]; exact hl)).2.2 (c, x)
        (SMap.mem_of_get? hc) rfl
    have he : (if t.len = 0 then wadd t.rva 1 else wadd t.rva t.len) = u32 (b + if t.len = 0 then 1 else t.len) := by
      rw [k1]; split <;> rfl
    rw [he]
    have hne : b ≠ u32 (b + if t.len = 0 then 1 else t.len) := by
      unfold u32 M32 at *
      split <;> omega
    generalize hv : ({ .. } : Symbol) = v
    generalize hq : u32 (b + if t.len = 0 then 1 else t.len) = q at hne hv
    have hend : IsModuleEnd (m.orInsert q v) q := by
      refine ⟨b, t, hne, ?_, ?_, hq.symm⟩
      · rw [get?_orInsert hs, if_neg (fun e => hne e.symm), hg]
      · intro c x hc hx
        rw [get?_orInsert hs, if_neg (fun e => hc e.symm)] at hx
        exact hmax c x hx
    refine ⟨?_, fun _ => ⟨_, hend, ?_⟩⟩
    · intro a s hn hx
      rw [get?_orInsert hs] at hx
      split at hx
      · rename_i hea
        rw [hea, hn] at hx
        cases hx
        subst hea
        subst hv
        exact ⟨hend, rfl, rfl, rfl, ⟨rfl, rfl⟩, rfl, rfl⟩
      · rw [hn] at hx; cases hx
    · rw [get?_orInsert hs, if_pos rfl]; simp

/-- Functions and exception entries. -/
theorem placeholders_from {env : CEnv} {mem : Mem} {U : List Str} {V : List Name} {pl : Platform} {main : ObjInput}
    {fs : List (Option Func)} (hok : ObjOk env mem U V pl main fs) {inlines : Bool} {st : State}
    (hst : collectFunctions env inlines fs State.new = .ok st) (hs : st.syms.Sorted) (hk : Keyed st.syms) (name : Str)
    (peName : Option Str) (M : Symbols) :
    PubInv env pl main fs name peName M [] (withPlaceholders main name peName st.syms) ∧
    (main.format = .pe → ∀ es, main.exceptions = some es → ∀ e ∈ es, e.begin ≤ e.stop →
      (withPlaceholders main name peName st.syms).get? e.begin ≠ none ∨
      InsideClosest (withPlaceholders main name peName st.syms) e.begin) := by
  obtain ⟨st', c1, _, c3⟩ := C10_first_function_wins env mem U V inlines fs hok.input
  rw [hst] at c1; cases c1
  have base : PubInv env pl main fs name peName M [] st.syms := by
    refine ⟨hs, hk, ?_, ?_, ?_, by simp⟩
    · intro a s hg hp
      have := c3 a
      cases hf : funcsAt fs a with
      | nil => rw [hf] at this; rw [hg] at this; cases this
      | cons f rest =>
        rw [hf] at this
        obtain ⟨sym, e1, _, _, _, e2, _⟩ := this
        rw [hg] at e1; cases e1
        rw [hp] at e2; cases e2
    · intro a s hg
      have := c3 a
      cases hf : funcsAt fs a with
      | nil => rw [hf] at this; rw [hg] at this; cases this
      | cons f rest =>
        rw [hf] at this
        obtain ⟨sym, e1, e2, e3, e4, e5, e6, e7, e8, _⟩ := this
        rw [hg] at e1; cases e1
        exact .function f rest s.name hf e5 e6 e3 e8 e4 (.inl rfl) (.inl e7)
    · intro a ha hn
      have := c3 a
      cases hf : funcsAt fs a with
      | nil => exact ha hf
      | cons f rest =>
        rw [hf] at this
        obtain ⟨sym, e1, _⟩ := this
        rw [hn] at e1; cases e1
  unfold withPlaceholders
  split
  · rename_i hpe
    cases hx : main.exceptions with
    | none => exact ⟨base, by simp⟩
    | some es =>
      simp only
      obtain ⟨a1, a2, a3, a4, a5, _⟩ := C16_placeholders (peName.getD name) es st.syms hs hk (hok.exceptions es hx)
      have hnew : ∀ a s, (collectPlaceholders (peName.getD name) es st.syms).get? a = some s → st.syms.get? a = some s ∨
          st.syms.get? a = none := by
        intro a s hg
        cases h0 : st.syms.get? a with
        | none => exact .inr rfl
        | some s0 => rw [a3 a s0 h0] at hg; cases hg; exact .inl rfl
      refine ⟨⟨a1, a2, ?_, ?_, ?_, by simp⟩, ?_⟩
      · intro a s hg hp
        rcases hnew a s hg with h0 | h0
        · exact base.plain a s h0 hp
        · rw [(a4 a s h0 hg).2.1] at hp; cases hp
      · intro a s hg
        rcases hnew a s hg with h0 | h0
        · exact base.from_ a s h0
        · obtain ⟨_, b2, b3, b4, b5, b6, b9, e, he, b7, b8⟩ := a4 a s h0 hg
          refine .entry es e hpe hx he b7 b8 ?_ b2 b3 b4 b5 (.inl b6) (.inl b9)
          apply Classical.byContradiction
          intro hf; exact base.functions a hf h0
      · intro a ha hn
        cases h0 : st.syms.get? a with
        | none => exact base.functions a ha h0
        | some s0 => rw [a3 a s0 h0] at hn; cases hn
      · intro _ es' he; cases he; exact a5
  · rename_i hpe
    exact ⟨base, fun h => absurd h hpe⟩

/-- The stages of a dump. -/
theorem dump_stages {env : CEnv} {mem : Mem} {U : List Str} {V : List Name} {pl : Platform} {main : ObjInput}
    {fs : List (Option Func)} (hok : ObjOk env mem U V pl main fs) {inlines : Bool} {name : Str} {pe : Option ObjInput}
    {peName : Option Str} {o : ObjectInfo} (ho : fromObject env inlines pl main name pe peName = .ok o) {ps : List Public}
    (hps : main.Embeds ps) :
    ∃ m, o.symbols = m.addExecutableSectionSymbols name main.kind ∧
      PubInv env pl main fs name peName o.symbols (main.publics ++ ps) m ∧
      (main.format = .pe → ∀ es, main.exceptions = some es → ∀ e ∈ es, e.begin ≤ e.stop →
        m.get? e.begin ≠ none ∨ InsideClosest m e.begin) := by
  obtain ⟨o', st, _, _, a1, _, a3, _, _, a4, a5, _, _, _, _, _, _, _, _, a8⟩ := fromObject_spec hok inlines name pe peName
  rw [ho] at a1; cases a1
  obtain ⟨p1, p2⟩ := placeholders_from hok a3 a4 a5 name peName o.symbols
  generalize hm0 : withPlaceholders main name peName st.syms = m0 at p1 p2 a8
  obtain ⟨m1, hm1⟩ := C15_publics_total env pl main.publics m0 (fun hw => hok.names hw _ (.inl rfl))
  have i1 := p1.all hm1
  have keep : ∀ (qs : List Public) (m m' : Symbols), m.Sorted → Keyed m → collectPublics env pl qs m = .ok m' → ∀ a,
      m.get? a ≠ none ∨ InsideClosest m a → m'.get? a ≠ none ∨ InsideClosest m' a := by
    intro qs m m' hs hk hc a h
    have hx := publics_extends hs hk hc
    obtain ⟨_, _, _, _, _, _, q7⟩ := C15_publics env pl qs m m' hs hk hc
    rcases h with h | h
    · cases hg : m.get? a with
      | none => exact absurd hg h
      | some s => obtain ⟨s', e, _⟩ := hx.keep a s hg; left; rw [e]; simp
    · exact .inr (q7 a h).1
  obtain ⟨r, hr, hq⟩ := (embeds_iff hok.embedded ps).mp hps
  obtain ⟨m2, hm2⟩ := C15_publics_total env pl ps m1 (fun hw => hok.names hw _ (.inr hps))
  have hmini : withMini env pl main m1 = .ok m2 := by
    unfold withMini
    rw [hr, Res.bind_ok]
    cases r with
    | none => subst hq; exact hm2
    | some q => subst hq; exact hm2
  refine ⟨m2, a8 m1 hm1 m2 hmini, by simpa using i1.all hm2, ?_⟩
  intro h1 es h2 e h3 h4
  exact keep _ _ _ i1.sorted i1.keyed hm2 _ (keep _ _ _ p1.sorted p1.keyed hm1 _ (p2 h1 es h2 e h3 h4))

/-- **C82, nothing else.** Every symbol of a dump stands for a function, an exception entry, a public symbol (of the file or of its embedded
debug data), an executable section or the end of the module, and it is stored at its address. -/
theorem C82_sources (env : CEnv) (mem : Mem) (U : List Str) (V : List Name) (pl : Platform) (main : ObjInput)
    (fs : List (Option Func)) (hok : ObjOk env mem U V pl main fs) (inlines : Bool) (name : Str) (pe : Option ObjInput)
    (peName : Option Str) (o : ObjectInfo) (ho : fromObject env inlines pl main name pe peName = .ok o) (ps : List Public)
    (hps : main.Embeds ps) :
    ∀ a s, o.symbols.get? a = some s → s.rva = a ∧ a < M32 ∧
      StandsFor env pl main fs (main.publics ++ ps) name peName o.symbols a s := by
  obtain ⟨m, h1, h2, _⟩ := dump_stages hok ho hps
  obtain ⟨o', _, _, _, e, hgood, _⟩ := fromObject_spec hok inlines name pe peName
  rw [ho] at e; cases e
  intro a s hg
  obtain ⟨k1, k2, _⟩ := hgood.keyed a s hg
  refine ⟨k1, k2, ?_⟩
  have hk : ∀ x, m.get? a = some x → (m.addExecutableSectionSymbols name main.kind).get? a = some x :=
    fun x hx => (sections_public h2.sorted h2.keyed).1 a x hx
  cases hm : m.get? a with
  | some x =>
    have := hk x hm
    rw [← h1, hg] at this; cases this
    exact h2.from_ a s hm
  | none =>
    have hg' := hg
    rw [h1] at hg'
    have hstop : main.kind = .pe ∨ main.kind = .pdb → StandsFor env pl main fs (main.publics ++ ps) name peName o.symbols a s := by
      intro hp
      obtain ⟨e1, e2, e3, e4, e5, e6, e7⟩ := (stop_from hp h2.sorted h2.keyed).1 a s hm hg'
      rw [← h1] at e1
      exact .stop hp e1 e2 e3 e4 e5 e6 e7
    cases hkind : main.kind with
    | elf hds =>
      rw [hkind] at hg'
      obtain ⟨b, h, c, rfl, e2, e3, e4, rfl⟩ := sections_from h2.sorted a s hm hg'
      exact .section b h c hkind e2 e3 e4 rfl rfl rfl ⟨rfl, rfl⟩ rfl rfl
    | pe => exact hstop (.inl hkind)
    | pdb => exact hstop (.inr hkind)
    | other => rw [hkind] at hg'; rw [addExecutableSectionSymbols, hm] at hg'; cases hg'

/-- **C82, nothing is missing.** In a dump there is a FUNC at the address of every function (other than address 0); every exception entry of
a PE and every public symbol that is not a compiler-made constant has a symbol at its address or lies within one; every executable section
of an ELF file has a symbol at its address; and unless a PE or PDB has no symbols there is one at the end of the module. -/
theorem C82_complete (env : CEnv) (mem : Mem) (U : List Str) (V : List Name) (pl : Platform) (main : ObjInput)
    (fs : List (Option Func)) (hok : ObjOk env mem U V pl main fs) (inlines : Bool) (name : Str) (pe : Option ObjInput)
    (peName : Option Str) (o : ObjectInfo) (ho : fromObject env inlines pl main name pe peName = .ok o) (ps : List Public)
    (hps : main.Embeds ps) :
    (∀ f, some f ∈ fs → f.address ≠ 0 → ∃ s, o.symbols.get? (u32 f.address) = some s ∧ s.isPublic = false ∧ s.isSynthetic = false) ∧
    (main.format = .pe → ∀ es, main.exceptions = some es → ∀ e ∈ es, e.begin ≤ e.stop → Within o.symbols e.begin) ∧
    (∀ p ∈ main.publics ++ ps, ¬ p.IsConstant → Within o.symbols (u32 p.address)) ∧
    (∀ hds, main.kind = .elf hds → ∀ h ∈ hds, h.executable = true → o.symbols.get? (u32 h.addr) ≠ none) ∧
    (main.kind = .pe ∨ main.kind = .pdb → o.symbols ≠ [] → ∃ a, IsModuleEnd o.symbols a ∧ o.symbols.get? a ≠ none) := by
  obtain ⟨m, h1, h2, h3⟩ := dump_stages hok ho hps
  have hk : ∀ a x, m.get? a = some x → o.symbols.get? a = some x :=
    fun a x hx => by rw [h1]; exact (sections_public h2.sorted h2.keyed).1 a x hx
  have hw : ∀ a, m.get? a ≠ none ∨ InsideClosest m a → Within o.symbols a := by
    rintro a (h | ⟨b, s, ⟨c1, c2, _⟩, c3, _⟩)
    · cases hg : m.get? a with
      | none => exact absurd hg h
      | some s => exact ⟨a, s, hk a s hg, by omega, .inl rfl⟩
    · exact ⟨b, s, hk b s c1, by omega, .inr c3⟩
  refine ⟨?_, ?_, ?_, ?_, ?_⟩
  · intro f hf hne
    have hat : f ∈ funcsAt fs (u32 f.address) := by
      unfold funcsAt
      rw [List.mem_filter]
      exact ⟨by simp [List.mem_filterMap, hf], by simp [hne]⟩
    have hne' : funcsAt fs (u32 f.address) ≠ [] := by intro h; rw [h] at hat; cases hat
    cases hg : m.get? (u32 f.address) with
    | none => exact absurd hg (h2.functions _ hne')
    | some s =>
      refine ⟨s, hk _ s hg, ?_⟩
      cases h2.from_ _ s hg with
      | function f rest own x1 x2 x3 => exact ⟨x2, x3⟩
      | entry es e x1 x2 x3 x4 x5 x6 => exact absurd x6 hne'
      | pub b p c x1 x2 x3 x4 => exact absurd x4 hne'
      | «section» b h c x1 x2 x3 x4 x5 x6 => rw [h2.plain _ s hg x5] at x6; cases x6
      | stop x1 x2 x3 x4 => rw [h2.plain _ s hg x3] at x4; cases x4
  · intro x1 es x2 e x3 x4; exact hw _ (h3 x1 es x2 e x3 x4)
  · intro p hp hn; exact hw _ (h2.publics p hp hn)
  · intro hds hkind h hh hx
    rw [h1, hkind]
    exact (C17_sections name hds m h2.sorted).2.2.2.1 h hh hx
  · intro hp hne
    have := (stop_from (name := name) hp h2.sorted h2.keyed).2 ?_
    · rw [← h1] at this; exact this
    · intro hm
      apply hne
      rw [h1, hm]
      exact (C17_end_of_module name main.kind hp [] (by rw [← hm]; exact h2.sorted) (by rw [← hm]; exact h2.keyed)).2.2.2.1 rfl

/-- **C82, as printed.** The FUNC and PUBLIC records read back from the printed text are the symbols of the dump, one record for each, in
ascending order of addresses. -/
theorem C82_printed (o : ObjectInfo) (hd : Dumped o) (extra : Option (List Str)) (hr : o.Readable (extra.getD [])) :
    ∃ text file, o.display extra = .ok text ∧ readSymFile text = some file ∧
      file.symbols.Pairwise (fun x y => x.rva < y.rva) ∧
      (∀ r ∈ file.symbols, ∃ s, o.symbols.get? r.rva = some s ∧ r.Reads s) ∧
      (∀ a s, o.symbols.get? a = some s → ∃ r ∈ file.symbols, r.rva = a ∧ r.Reads s) := by
  have hg := hd.good
  have hin : ∀ e ∈ o.symbols, o.symbols.get? e.1 = some e.2 := fun e he => SMap.get?_of_mem hg.sorted he
  obtain ⟨text, file, r1, r2, _, _, _, _, _, r5, _⟩ := read_display hr (fun e he => (hg.inlines _ _ (hin e he)).2)
  have hrva : ∀ s : Symbol, (symOf s).rva = s.rva := by intro s; unfold symOf; split <;> rfl
  refine ⟨text, file, r1, r2, ?_, ?_, ?_⟩
  · rw [r5, List.pairwise_map]
    refine (sorted_lt hg.sorted).imp_of_mem ?_
    intro x y hx hy hlt
    rw [hrva, hrva, (hg.keyed _ _ (hin x hx)).1, (hg.keyed _ _ (hin y hy)).1]
    exact hlt
  · intro r hr
    rw [r5, List.mem_map] at hr
    obtain ⟨e, he, rfl⟩ := hr
    refine ⟨e.2, ?_, symOf_reads (hg.pubs _ _ (hin e he))⟩
    rw [hrva, (hg.keyed _ _ (hin e he)).1]
    exact hin e he
  · intro a s hs
    refine ⟨symOf s, ?_, by rw [hrva, (hg.keyed _ _ hs).1], symOf_reads (hg.pubs _ _ hs)⟩
    rw [r5, List.mem_map]
    exact ⟨(a, s), SMap.mem_of_get? hs, rfl⟩

/-! ## Examples -/

/-- A PE with functions, exception entries (in a function, and where there is none) and public symbols (at a function, at an entry, inside
one, a constant, and two in a hole). -/
def recInput : ObjInput :=
  { symInput with
    format := .pe
    kind := .pe
    exceptions := some [⟨0x1004, 0x1010⟩, ⟨0x5000, 0x5010⟩, ⟨0x5008, 0x5010⟩]
    publics := [⟨some (str% "_f2@8"), 0x1000, 4⟩, ⟨some (str% "_p@12"), 0x5000, 4⟩, ⟨some (str% "q"), 0x5008, 4⟩,
      ⟨some (str% "__real@3f"), 0x6000, 4⟩, ⟨some (str% "@r@4"), 0x7000, 4⟩, ⟨none, 0x7000, 4⟩] }

def recObj : ObjectInfo := theObj (fromObject sampleCEnv true .win recInput (str% "f.dll") none (some (str% "g.dll")))

theorem recInput_ok : ObjOk sampleCEnv sampleMem sampleU sampleV .win recInput sampleFs := by
  have hemb : recInput.EmbeddedInside := embeddedInside_of_kind (by intro l h; cases h)
  refine ⟨rfl, sampleInputOk, ?_, ?_, hemb⟩
  · intro es h; cases h; decide
  · intro _ ps hps p hp n hn
    have hemp : ∀ ps, recInput.Embeds ps → ps = [] := by
      intro ps h
      obtain ⟨r, h1, h2⟩ := (embeds_iff hemb ps).mp h
      cases h1; exact h2
    rcases hps with rfl | hps
    · simp only [recInput, List.mem_cons, List.not_mem_nil, or_false] at hp
      rcases hp with rfl | rfl | rfl | rfl | rfl | rfl <;> cases hn
      · exact ⟨str% "f2", some 8, (C41_decorated _ _ _).mp (by decide)⟩
      · exact ⟨str% "p", some 12, (C41_decorated _ _ _).mp (by decide)⟩
      · exact ⟨str% "q", none, (C41_decorated _ _ _).mp (by decide)⟩
      · exact ⟨_, _, (C41_decorated _ _ _).mp rfl⟩
      · exact ⟨str% "r", some 4, (C41_decorated _ _ _).mp (by decide)⟩
    · rw [hemp ps hps] at hp; cases hp

theorem recInput_embeds : recInput.Embeds [] :=
  (embeds_iff recInput_ok.embedded []).mpr ⟨none, rfl, rfl⟩

/-- The records of this file: the function keeps its name (it has a parenthesis), the placeholder takes the name and the parameter size of the
public symbol at its address, the public symbols in the hole give one record, and the last record marks the end. -/
example : recObj.symbols.map (fun e => ((e.1, e.2.len, e.2.parameterSize), (e.2.isPublic, e.2.isSynthetic, e.2.isMultiple), e.2.name)) =
    [((0x1000, 0x20, 8), (false, false, true), str% "f()"), ((0x5000, 0x10, 12), (false, true, false), str% "p"),
     ((0x7000, 4, 4), (true, false, true), str% "r"), ((0x7004, 0, 0), (true, true, false), str% "<unknown in f.dll>")] := by decide

/-- C82 for this file. -/
example : (∀ a s, recObj.symbols.get? a = some s → s.rva = a ∧ a < M32 ∧
      StandsFor sampleCEnv .win recInput sampleFs (recInput.publics ++ []) (str% "f.dll") (some (str% "g.dll")) recObj.symbols a s) ∧
    Within recObj.symbols 0x5008 ∧ ∃ a, IsModuleEnd recObj.symbols a ∧ recObj.symbols.get? a ≠ none := by
  refine ⟨C82_sources sampleCEnv sampleMem sampleU sampleV .win recInput sampleFs recInput_ok true (str% "f.dll") none
    (some (str% "g.dll")) recObj rfl [] recInput_embeds, ?_⟩
  obtain ⟨_, _, h1, _, h2⟩ := C82_complete sampleCEnv sampleMem sampleU sampleV .win recInput sampleFs recInput_ok true (str% "f.dll") none
    (some (str% "g.dll")) recObj rfl [] recInput_embeds
  refine ⟨h1 ⟨some (str% "q"), 0x5008, 4⟩ (by decide) ?_, h2 (.inl rfl) (by decide)⟩
  rintro ⟨n, h, r, h' | h' | h' | h'⟩ <;> cases h <;> simp at h'

/-- The printed records of a library. -/
example : ∃ text file, (symObj true).display none = .ok text ∧ readSymFile text = some file ∧
    file.symbols.Pairwise (fun x y => x.rva < y.rva) ∧
    (∀ r ∈ file.symbols, ∃ s, (symObj true).symbols.get? r.rva = some s ∧ r.Reads s) ∧
    (∀ a s, (symObj true).symbols.get? a = some s → ∃ r ∈ file.symbols, r.rva = a ∧ r.Reads s) :=
  C82_printed (symObj true) ⟨_, sampleCEnv, _, _, _, .linux, symInput, _, true, str% "/lib/f.so", none, none, symInput_ok, rfl, rfl⟩ none (symObj_readable true)

end DumpSyms
