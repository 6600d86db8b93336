import Verif.Props.Display
import Verif.Spec.Frames
import Verif.Proof.SourcePath
import Mathlib.Data.List.Perm.Subperm
/-!
# C67: what a user of the printed symbol file finds for an address is what the debug information says
-/
namespace DumpSyms
open Collector ObjectInfo Symbols Reader

/-! ## The symbols of a dump -/

/-- New symbols for sections and for the end of the module are PUBLICs, and existing symbols are unchanged. -/
theorem sections_public {name : Str} {k : ObjKind} {m : Symbols} (hs : m.Sorted) (hk : Keyed m) :
    (∀ a s, m.get? a = some s → (m.addExecutableSectionSymbols name k).get? a = some s) ∧
    ∀ a s, m.get? a = none → (m.addExecutableSectionSymbols name k).get? a = some s → s.isPublic = true := by
  have dummy : ∀ k, k = ObjKind.pe ∨ k = ObjKind.pdb →
      (∀ a s, m.get? a = some s → (m.addExecutableSectionSymbols name k).get? a = some s) ∧
      ∀ a s, m.get? a = none → (m.addExecutableSectionSymbols name k).get? a = some s → s.isPublic = true := by
    intro k hk'
    obtain ⟨a1, a2, a3, a4, a5⟩ := C17_end_of_module name k hk' m hs hk
    refine ⟨a3, ?_⟩
    have hap : m.addExecutableSectionSymbols name k = m.appendDummy name := by rcases hk' with rfl | rfl <;> rfl
    rw [hap]
    intro a s hn hg
    unfold appendDummy at hg
    split at hg
    · rw [hn] at hg; cases hg
    · rename_i last _
      simp only at hg
      rw [get?_orInsert hs] at hg
      by_cases hxa : (if last.len = 0 then wadd last.rva 1 else wadd last.rva last.len) = a
      · rw [if_pos hxa, hxa, hn] at hg
        cases hg; rfl
      · rw [if_neg hxa, hn] at hg; cases hg
  cases k with
  | elf hds =>
    obtain ⟨a1, a2, a3, _, a5⟩ := C17_sections name hds m hs
    exact ⟨a3, fun a s hn hg => (a5 a s hn hg).1⟩
  | pe => exact dummy _ (.inl rfl)
  | pdb => exact dummy _ (.inr rfl)
  | other => exact ⟨fun _ _ h => h, fun a s h h' => by rw [addExecutableSectionSymbols, h] at h'; cases h'⟩

/-- What the later stages of a dump do to the collected functions: their records, extents and (outside Windows, or when they
have parameters) names stay, and no FUNC is added inside a function. -/
theorem dump_functions {env : CEnv} {mem : Mem} {U : List Str} {V : List Name} {platform : Platform} {main : ObjInput}
    {fs : List (Option Func)} (h : ObjOk env mem U V platform main fs) {inlines : Bool} {name : Str}
    {pe : Option ObjInput} {peName : Option Str} {o : ObjectInfo}
    (ho : fromObject env inlines platform main name pe peName = .ok o) {st : State}
    (hst : collectFunctions env inlines fs State.new = .ok st) :
    o.Good ∧ o.files = st.src.getMapping ∧ o.inlineOrigins = st.org.getList ∧
    (∀ a s, st.syms.get? a = some s → s.isPublic = false → ∃ n k, o.symbols.get? a = some { s with name := n, parameterSize := k } ∧
      ('(' ∈ s.name → n = s.name) ∧ (platform ≠ .win → n = s.name)) ∧
    (∀ a s, st.syms.get? a = none → InsideClosest st.syms a → o.symbols.get? a = some s → s.isPublic = true) := by
  obtain ⟨o', st', ps, seen, a1, a2, a3, _, _, a4, a5, _, a6, a7, _, _, _, _, _, a8⟩ := fromObject_spec h inlines name pe peName
  rw [ho] at a1; cases a1
  rw [hst] at a3; cases a3
  have e1 := placeholders_extends (main := main) (name := name) (pe := peName) a4 a5 h.exceptions
  -- placeholders
  have p1 : (∀ a s, st.syms.get? a = some s → (withPlaceholders main name peName st.syms).get? a = some s) ∧
      ∀ a, st.syms.get? a = none → InsideClosest st.syms a → (withPlaceholders main name peName st.syms).get? a = none := by
    unfold withPlaceholders
    split
    · cases hx : main.exceptions with
      | none => exact ⟨fun _ _ h => h, fun _ h _ => h⟩
      | some es =>
        simp only
        obtain ⟨_, _, b3, b4, _⟩ := C16_placeholders (peName.getD name) es st.syms a4 a5 (h.exceptions es hx)
        refine ⟨b3, fun a hn hin => ?_⟩
        cases hg : (collectPlaceholders (peName.getD name) es st.syms).get? a with
        | none => rfl
        | some s => exact absurd hin (b4 a s hn hg).1
    · exact ⟨fun _ _ h => h, fun _ h _ => h⟩
  generalize hm0 : withPlaceholders main name peName st.syms = m0 at e1 p1 a8
  -- one list of public symbols
  have pub : ∀ (ps : List Public) (m m' : Symbols), m.Sorted → Keyed m → collectPublics env platform ps m = .ok m' →
      (∀ (a : Nat) (s : Symbol) (n : Str) (k : Nat), m.get? a = some { s with name := n, parameterSize := k } → s.isPublic = false →
        ('(' ∈ s.name → n = s.name) ∧ (platform ≠ .win → n = s.name) →
        ∃ n' k', m'.get? a = some { s with name := n', parameterSize := k' } ∧
          ('(' ∈ s.name → n' = s.name) ∧ (platform ≠ .win → n' = s.name)) ∧
      (∀ a, (∀ s, m.get? a = some s → s.isPublic = true) → ∀ s, m'.get? a = some s → s.isPublic = true) := by
    intro ps m m' hs hk hc
    obtain ⟨_, _, b3, b4, b5, _⟩ := C15_publics env platform ps m m' hs hk hc
    refine ⟨?_, ?_⟩
    · intro a s n k hg hp hn
      obtain ⟨n', k', c1, c2, c3⟩ := b3 a _ hg hp
      refine ⟨n', k', c1, ?_, ?_⟩
      · intro hpar
        have := hn.1 hpar
        simp only at c2
        rw [c2 (by rw [this]; exact hpar), this]
      · intro hw
        rw [(c3 hw).1]; exact hn.2 hw
    · intro a hall s hg
      cases hm : m.get? a with
      | none => exact (b5 a s hm hg).2.1
      | some x =>
        rcases b4 a x hm (hall x hm) with e | e <;> rw [e] at hg <;> cases hg
        · exact hall _ hm
        · exact hall x hm
  obtain ⟨m1, hm1⟩ := C15_publics_total env platform main.publics m0 (fun hw => h.names hw _ (.inl rfl))
  have x1 := publics_extends e1.sorted e1.keyed hm1
  have hm2 : ∃ m2, withMini env platform main m1 = .ok m2 ∧ m2.Sorted ∧ Keyed m2 ∧
      (∀ (a : Nat) (s : Symbol) (n : Str) (k : Nat), m1.get? a = some { s with name := n, parameterSize := k } → s.isPublic = false →
        ('(' ∈ s.name → n = s.name) ∧ (platform ≠ .win → n = s.name) →
        ∃ n' k', m2.get? a = some { s with name := n', parameterSize := k' } ∧
          ('(' ∈ s.name → n' = s.name) ∧ (platform ≠ .win → n' = s.name)) ∧
      (∀ a, (∀ s, m1.get? a = some s → s.isPublic = true) → ∀ s, m2.get? a = some s → s.isPublic = true) := by
    unfold withMini
    obtain ⟨r, hx⟩ := miniPublics_ok h.embedded
    rw [hx, Res.bind_ok]
    cases r with
    | none => exact ⟨m1, rfl, x1.sorted, x1.keyed, fun a s n k hg _ hn => ⟨n, k, hg, hn⟩, fun _ h => h⟩
    | some q =>
      obtain ⟨m2, hm2⟩ := C15_publics_total env platform q m1 (fun hw => h.names hw _ (.inr ((embeds_iff h.embedded q).mpr ⟨_, hx, rfl⟩)))
      have x2 := publics_extends x1.sorted x1.keyed hm2
      exact ⟨m2, hm2, x2.sorted, x2.keyed, pub q m1 m2 x1.sorted x1.keyed hm2⟩
  obtain ⟨m2, hm2, x2, x3, y1, y2⟩ := hm2
  have z := a8 m1 hm1 m2 hm2
  obtain ⟨w1, w2⟩ := sections_public (name := name) (k := main.kind) x2 x3
  refine ⟨a2, a6, a7, ?_, ?_⟩
  · intro a s hg hp
    obtain ⟨n, k, c1, c2⟩ := (pub _ _ _ e1.sorted e1.keyed hm1).1 a s s.name s.parameterSize (p1.1 a s hg) hp
      ⟨fun _ => rfl, fun _ => rfl⟩
    obtain ⟨n', k', d1, d2⟩ := y1 a s n k c1 hp c2
    exact ⟨n', k', by rw [z]; exact w1 _ _ d1, d2⟩
  · intro a s hn hin hg
    have q0 : ∀ s, m0.get? a = some s → s.isPublic = true := by intro s hs; rw [p1.2 a hn hin] at hs; cases hs
    have q2 := y2 a ((pub _ _ _ e1.sorted e1.keyed hm1).2 a q0)
    rw [z] at hg
    cases hx : m2.get? a with
    | none => exact w2 a s hx hg
    | some x =>
      rw [w1 a x hx] at hg; cases hg
      exact q2 _ hx

/-! ## Reading -/

theorem find_enumFrom {α : Type} (l : List α) (k n : Nat) :
    ((enumFrom k l).find? fun e => decide (e.1 = k + n)).map (·.2) = l[n]? := by
  induction l generalizing k n with
  | nil => rfl
  | cons x l ih =>
    cases n with
    | zero => simp [enumFrom]
    | succ n =>
      have : decide (k = k + (n + 1)) = false := by simp
      rw [enumFrom, List.find?_cons]
      simp only [this]
      have := ih (k + 1) n
      rw [show k + 1 + n = k + (n + 1) by omega] at this
      simpa using this

theorem path_read {f : SymFile} {l : List Str} (h : f.files = enumFrom 0 l) (n : Nat) : f.path n = l[n]? := by
  unfold SymFile.path
  rw [h]
  simpa using find_enumFrom l 0 n

theorem origin_read {f : SymFile} {l : List Str} (h : f.origins = (enumFrom 0 l).map fun e => (e.1, originText e.2)) (n : Nat) :
    f.origin n = (l[n]?).map originText := by
  unfold SymFile.origin
  rw [h, List.find?_map, ← find_enumFrom l 0 n]
  simp only [Function.comp_def, Nat.zero_add]
  cases (enumFrom 0 l).find? fun e => decide (e.1 = n) <;> rfl

theorem last_filter {α : Type} {l : List α} {key : α → Nat} (hs : l.Pairwise fun x y => key x < key y) {p : α → Bool} {x : α}
    (hx : x ∈ l) (hp : p x = true) (hmax : ∀ y ∈ l, p y = true → key y ≤ key x) : (l.filter p).getLast? = some x := by
  have hmem : x ∈ l.filter p := List.mem_filter.mpr ⟨hx, hp⟩
  obtain ⟨A, B, e⟩ := List.append_of_mem hmem
  have hsf := hs.filter p
  rw [e, List.pairwise_append, List.pairwise_cons] at hsf
  cases B with
  | nil => rw [e]; simp
  | cons y B =>
    have h1 := hsf.2.1.1 y (by simp)
    have hy : y ∈ l.filter p := by rw [e]; simp
    have h2 := hmax y (List.mem_filter.mp hy).1 (List.mem_filter.mp hy).2
    omega

/-- The FUNC record found for an address inside a function. -/
theorem funcAt_read {f : SymFile} {m : Symbols} (hf : f.symbols = m.map fun e => symOf e.2) (hs : m.Sorted) (hk : Keyed m)
    {addr a : Nat} {s : Symbol} (hg : m.get? addr = some s) (hp : s.isPublic = false) (h1 : addr ≤ a) (h2 : a < addr + s.len)
    (hb : ∀ b x, addr < b → b ≤ a → m.get? b = some x → x.isPublic = true) : f.funcAt a = some (symOf s) := by
  unfold SymFile.funcAt
  have hlast : (f.symbols.filter fun r => !r.isPublic && decide (r.rva ≤ a)).getLast? = some (symOf s) := by
    rw [hf, List.filter_map, List.getLast?_map]
    have rva : ∀ x : Symbol, (symOf x).rva = x.rva := by intro x; unfold symOf; split <;> rfl
    have pubeq : ∀ x : Symbol, (symOf x).isPublic = x.isPublic := by
      intro x; unfold symOf; split
      · rename_i h; exact h.symm
      · rename_i h; simpa using (Bool.not_eq_true _ ▸ h)
    rw [last_filter (key := (·.1)) (x := (addr, s)) (sorted_lt hs) (SMap.mem_of_get? hg)]
    · rfl
    · simp [pubeq, rva, hp, (hk addr s hg).1, h1]
    · intro y hy hpy
      have hgy := SMap.get?_of_mem hs hy
      simp only [Function.comp_def, pubeq, rva, (hk _ _ hgy).1, Bool.and_eq_true, Bool.not_eq_true', decide_eq_true_eq] at hpy
      rcases Nat.lt_or_ge addr y.1 with hlt | hge
      · have := hb y.1 y.2 hlt hpy.2 hgy
        rw [hpy.1] at this; cases this
      · exact hge
  rw [hlast]
  have hl : (symOf s).len = s.len := by simp [symOf, hp]
  have hr : (symOf s).rva = addr := by simp [symOf, hp, (hk addr s hg).1]
  simp only [hl, hr]
  rw [if_pos h2]

theorem inlineAt_symOf {s : Symbol} (hp : s.isPublic = false) (hs : SMap.Sorted s.source.inlines) (a d : Nat) :
    ((symOf s).inlineAt a d = none ∧ ∀ site rs r, s.source.inlines.get? site = some rs → r ∈ rs → r.Covers a → site.depth ≠ d) ∨
    ∃ site rs r, (symOf s).inlineAt a d = some site ∧ site.depth = d ∧ s.source.inlines.get? site = some rs ∧ r ∈ rs ∧
      r.Covers a := by
  have hin : (symOf s).inlines.Perm s.source.inlines := by
    simp only [symOf, hp, Bool.false_eq_true, if_false]; exact isort_perm _ _
  unfold RSym.inlineAt
  cases hf : (symOf s).inlines.find? fun e =>
      decide (e.1.depth = d) && e.2.any fun x => decide (x.rva ≤ a ∧ a < x.rva + x.len) with
  | none =>
    left
    refine ⟨rfl, ?_⟩
    intro site rs r hg hr hc hd
    have hm : (site, rs) ∈ (symOf s).inlines := hin.mem_iff.mpr (SMap.mem_of_get? hg)
    have := List.find?_eq_none.mp hf _ hm
    apply this
    simp only [Bool.and_eq_true, decide_eq_true_eq, List.any_eq_true]
    exact ⟨hd, r, hr, hc⟩
  | some e =>
    right
    have h1 := List.find?_some hf
    have h2 : e ∈ s.source.inlines := hin.mem_iff.mp (List.mem_of_find?_eq_some hf)
    simp only [Bool.and_eq_true, decide_eq_true_eq, List.any_eq_true] at h1
    obtain ⟨hd, r, hr, hc⟩ := h1
    exact ⟨e.1, e.2, r, rfl, hd, SMap.get?_of_mem hs h2, hr, hc⟩

/-- The text printed for the name of an inlined function: the demangled name without control characters, or a fixed text if
nothing visible is left. -/
def printedOrigin (env : CEnv) (n : Name) : Str :=
  if Blank (InlineOrigins.demangleAndSanitize env.dm n) then str% "<name omitted>"
  else InlineOrigins.demangleAndSanitize env.dm n

/-- The path printed for a reference. -/
def printedPath (env : CEnv) (c : ByteSlice) (f : FileInfo) : Str :=
  (env.src.mapping (SourceFiles.getPath env.src c f)).getD (SourceFiles.getPath env.src c f)

/-- These are the texts of the specification, and the only ones. -/
theorem printed_iff (env : CEnv) (path : ByteSlice → FileInfo → Str) (nameOf : Name → Str) :
    Printed env path nameOf ↔ path = printedPath env ∧ nameOf = printedOrigin env := by
  constructor
  · intro h
    constructor
    · funext c f
      exact h.path c f _ (recordedPath_getPath env.src c f)
    · funext n
      have := h.nameOf n _ ((originName_iff _ _ _).mpr rfl)
      unfold printedOrigin
      split
      · rename_i hb; exact this.1 hb
      · rename_i hb; exact this.2 hb
  · rintro ⟨rfl, rfl⟩
    refine ⟨?_, ?_⟩
    · intro c f p hp
      rw [(recordedPath_iff _ _ _ _).mp hp]; rfl
    · intro n t ht
      rw [(originName_iff _ _ _).mp ht]
      unfold printedOrigin
      exact ⟨fun h => if_pos h, fun h => if_neg h⟩

theorem originText_eq (n : Str) : originText n = if Blank n then str% "<name omitted>" else n := by
  unfold originText
  by_cases hb : trim n = []
  · rw [if_pos hb, if_pos ((trim_nil_iff n).mp hb)]
  · rw [if_neg hb, if_neg (fun h => hb ((trim_nil_iff n).mpr h))]

/-- The frames read are those of the chain of calls. -/
theorem framesFrom_read {env : CEnv} {f : SymFile} {s : Symbol} {paths : List Str} {names : List Name} {a : Nat}
    {cs : List CallStep} {l : LineInfo} {c : ByteSlice} (hp : s.isPublic = false) (hs : SMap.Sorted s.source.inlines)
    (hfiles : f.files = enumFrom 0 (paths.map fun p => (env.src.mapping p).getD p))
    (horg : f.origins = (enumFrom 0 (names.map (InlineOrigins.demangleAndSanitize env.dm))).map fun e => (e.1, originText e.2))
    (hsite : ∀ site : InlineSite, (∃ rs, s.source.inlines.get? site = some rs ∧ ∃ r ∈ rs, r.Covers a) ↔
      ∃ step, cs[site.depth]? = some step ∧ site.callLine = u32 step.callLine.line ∧
        paths[site.callFile]? = some (SourceFiles.getPath env.src step.callerDir step.callLine.file) ∧
        names[site.originId]? = some step.callee)
    (hstep : ∀ step ∈ cs, SourceFiles.getPath env.src step.callerDir step.callLine.file ∈ paths ∧ step.callee ∈ names)
    (hline : ∃ fileId, lookupLine s.source.lines a = some (u32 l.line, fileId) ∧ f.path fileId = some (printedPath env c l.file))
    (fuel : Nat) : ∀ d fn, cs.length < fuel + d →
      f.framesFrom (symOf s) a fuel d fn = debugFrames (printedPath env) (printedOrigin env) fn (cs.drop d) l c ∨ fuel = 0 := by
  induction fuel with
  | zero => intro d fn _; exact .inr rfl
  | succ fuel ih =>
    intro d fn hd
    left
    unfold SymFile.framesFrom
    have hls : (symOf s).lines = s.source.lines := by simp [symOf, hp]
    rcases inlineAt_symOf hp hs a d with ⟨h1, h2⟩ | ⟨site, rs, r, h1, h2, h3, h4, h5⟩
    · rw [h1, hls]
      simp only
      have hcs : cs[d]? = none := by
        cases hx : cs[d]? with
        | none => rfl
        | some step =>
          exfalso
          obtain ⟨m1, m2⟩ := hstep step (List.mem_of_getElem? hx)
          obtain ⟨i, hi⟩ := List.mem_iff_getElem?.mp m1
          obtain ⟨j, hj⟩ := List.mem_iff_getElem?.mp m2
          obtain ⟨rs, g1, r, g2, g3⟩ := (hsite ⟨j, d, u32 step.callLine.line, i⟩).mpr ⟨step, hx, rfl, hi, hj⟩
          exact h2 _ rs r g1 g2 g3 rfl
      have hdrop : cs.drop d = [] := List.drop_eq_nil_iff.mpr (List.getElem?_eq_none_iff.mp hcs)
      obtain ⟨fileId, q1, q2⟩ := hline
      rw [q1, hdrop]
      simp only [debugFrames, q2]
    · rw [h1]
      simp only
      obtain ⟨step, k1, k2, k3, k4⟩ := (hsite site).mp ⟨rs, h3, r, h4, h5⟩
      rw [h2] at k1
      have hlt : d < cs.length := (List.getElem?_eq_some_iff.mp k1).1
      have hdrop : cs.drop d = step :: cs.drop (d + 1) := by
        rw [List.drop_eq_getElem_cons hlt]
        congr 1
        exact (List.getElem?_eq_some_iff.mp k1).2
      rw [hdrop]
      simp only [debugFrames, List.cons.injEq, Frame.mk.injEq, true_and]
      have hpath : f.path site.callFile = some (printedPath env step.callerDir step.callLine.file) := by
        rw [path_read hfiles, List.getElem?_map, k3]; rfl
      have hname : f.origin site.originId = some (printedOrigin env step.callee) := by
        rw [origin_read horg, List.getElem?_map, k4]
        simp only [Option.map_some, originText_eq]; rfl
      refine ⟨⟨hpath, k2⟩, ?_⟩
      rw [hname, Option.getD_some]
      rcases ih (d + 1) (printedOrigin env step.callee) (by omega) with e | e
      · exact e
      · omega

/-- A chain is not longer than the list of INLINE records. -/
theorem chain_length {s : Symbol} {paths : List Str} {names : List Name} {env : CEnv} {a : Nat} {cs : List CallStep}
    (hsite : ∀ site : InlineSite, (∃ rs, s.source.inlines.get? site = some rs ∧ ∃ r ∈ rs, r.Covers a) ↔
      ∃ step, cs[site.depth]? = some step ∧ site.callLine = u32 step.callLine.line ∧
        paths[site.callFile]? = some (SourceFiles.getPath env.src step.callerDir step.callLine.file) ∧
        names[site.originId]? = some step.callee)
    (hstep : ∀ step ∈ cs, SourceFiles.getPath env.src step.callerDir step.callLine.file ∈ paths ∧ step.callee ∈ names) :
    cs.length ≤ s.source.inlines.length := by
  have hsub : List.range cs.length ⊆ s.source.inlines.map fun e => e.1.depth := by
    intro d hd
    have hlt : d < cs.length := List.mem_range.mp hd
    obtain ⟨m1, m2⟩ := hstep cs[d] (List.getElem_mem hlt)
    obtain ⟨i, hi⟩ := List.mem_iff_getElem?.mp m1
    obtain ⟨j, hj⟩ := List.mem_iff_getElem?.mp m2
    obtain ⟨rs, g1, _⟩ := (hsite ⟨j, d, u32 cs[d].callLine.line, i⟩).mpr ⟨cs[d], List.getElem?_eq_getElem hlt, rfl, hi, hj⟩
    exact List.mem_map.mpr ⟨_, SMap.mem_of_get? g1, rfl⟩
  have := (List.subperm_of_subset List.nodup_range hsub).length_le
  simpa using this

theorem nodup_getElem? {α : Type} {l : List α} (h : l.Nodup) {i j : Nat} {x : α} (hi : l[i]? = some x) (hj : l[j]? = some x) :
    i = j := by
  obtain ⟨a1, a2⟩ := List.getElem?_eq_some_iff.mp hi
  obtain ⟨b1, b2⟩ := List.getElem?_eq_some_iff.mp hj
  have hp := List.pairwise_iff_getElem.mp h
  rcases Nat.lt_trichotomy i j with hij | hij | hij
  · exact absurd (a2.trans b2.symm) (hp i j a1 b1 hij)
  · exact hij
  · exact absurd (b2.trans a2.symm) (hp j i b1 a1 hij)

/-- The common part of the two cases below: the lookup of a line and of the calls in the collected symbol carries over to the
printed text. -/
theorem symbolicate_core {env : CEnv} {mem : Mem} {U : List Str} {V : List Name} {platform : Platform} {main : ObjInput}
    {fs : List (Option Func)} (hok : ObjOk env mem U V platform main fs) {inlines : Bool} {name : Str} {pe : Option ObjInput}
    {peName : Option Str} {o : ObjectInfo} (ho : fromObject env inlines platform main name pe peName = .ok o)
    {extra : Option (List Str)} (hr : o.Readable (extra.getD []))
    {addr : Nat} {f : Func} {rest : List Func} (hfirst : funcsAt fs addr = f :: rest) (hend : f.address + f.size < M32)
    {a : Nat} (hlo : addr ≤ a) (hhi : a < f.address + f.size) (hbetween : ∀ b, addr < b → b ≤ a → funcsAt fs b = [])
    {st : State} {sym : Symbol} (s1 : collectFunctions env inlines fs State.new = .ok st) (s2 : st.syms.get? addr = some sym)
    {l : LineInfo} {c : ByteSlice} {cs : List CallStep} {paths : List Str} {names : List Name}
    (t3 : st.src.getMapping.getMapping = paths.map (fun p => (env.src.mapping p).getD p))
    (t4 : st.org.getList = names.map (InlineOrigins.demangleAndSanitize env.dm))
    (t5 : ∀ site : InlineSite, (∃ rs, sym.source.inlines.get? site = some rs ∧ ∃ r ∈ rs, r.Covers a) ↔
      ∃ step, cs[site.depth]? = some step ∧ site.callLine = u32 step.callLine.line ∧
        paths[site.callFile]? = some (SourceFiles.getPath env.src step.callerDir step.callLine.file) ∧
        names[site.originId]? = some step.callee)
    (t6 : ∀ step ∈ cs, SourceFiles.getPath env.src step.callerDir step.callLine.file ∈ paths ∧ step.callee ∈ names)
    {fileId : Nat} (l1 : lookupLine sym.source.lines a = some (u32 l.line, fileId))
    (l2 : st.src.getMapping.getMapping[fileId]? = some (printedPath env c l.file)) :
    ∃ text file s, o.display extra = .ok text ∧ readSymFile text = some file ∧
      file.framesAt a = some (debugFrames (printedPath env) (printedOrigin env) s.name cs l c) ∧
      (platform ≠ .win ∨ '(' ∈ Collector.demangle env f.name → s.name = Collector.demangle env f.name) ∧
      o.symbols.get? addr = some s ∧ s.isSynthetic = false ∧ file.funcAt a = some (symOf s) ∧ (symOf s).rva = addr ∧
        (paths.Nodup → names.Nodup → (symOf s).ClearAt a) := by
  obtain ⟨st', u1, u2, u3⟩ := C10_first_function_wins env mem U V inlines fs hok.input
  rw [s1] at u1; cases u1
  have u4 := u3 addr
  rw [hfirst] at u4
  obtain ⟨sym', v1, v2, v3, v4, v5, v6, _⟩ := u4
  rw [s2] at v1; cases v1
  rw [shown_demangle] at v4
  obtain ⟨hm, hne, ha⟩ := mem_of_funcsAt (show f ∈ funcsAt fs addr by rw [hfirst]; simp)
  have hu1 : u32 f.address = f.address := u32_of_lt (by omega)
  have hu2 : u32 f.size = f.size := u32_of_lt (by omega)
  have haddr : addr = f.address := by rw [← ha, hu1]
  rw [hu2] at v3
  have hnone : ∀ b, addr < b → b ≤ a → st.syms.get? b = none := by
    intro b h1 h2
    have := u3 b
    rw [hbetween b h1 h2] at this
    exact this
  obtain ⟨g1, g2, g3, g4, g5⟩ := dump_functions hok ho s1
  obtain ⟨n, k, w1, w2, w3⟩ := g4 addr sym s2 v5
  have hn : platform ≠ .win ∨ '(' ∈ Collector.demangle env f.name → n = Collector.demangle env f.name := by
    rintro (h | h)
    · rw [w3 h, v4]
    · rw [w2 (by rw [v4]; exact h), v4]
  obtain ⟨text, file, r1, r2, _, _, _, r3, r4, r5, _⟩ := read_display hr (fun e he =>
    (g1.inlines _ _ (SMap.get?_of_mem g1.sorted he)).2)
  have hfunc := funcAt_read (a := a) r5 g1.sorted g1.keyed w1 v5 hlo (by simp only [v3]; omega) (by
    intro b x h1 h2 hx
    refine g5 b x (hnone b h1 h2) ⟨addr, sym, ⟨s2, h1, fun q q1 q2 => hnone q q1 (by omega)⟩, ?_, ?_⟩ hx
    · rw [v3]; omega
    · rw [v3]; omega)
  refine ⟨text, file, _, r1, r2, ?_, hn, w1, v6, hfunc, by simp [symOf, v5, v2], ?_⟩
  rotate_left
  · intro hps hns
    have hin : (symOf { sym with name := n, parameterSize := k }).inlines.Perm sym.source.inlines := by
      simp only [symOf, v5, Bool.false_eq_true, if_false]; exact isort_perm _ _
    unfold RSym.ClearAt
    have hkeys : (symOf { sym with name := n, parameterSize := k }).inlines.Pairwise fun e e' => e.1 ≠ e'.1 := by
      have h0 := SMap.keys_pairwise_iff.mp (g1.inlines _ _ w1).1
      have h1 : sym.source.inlines.Pairwise fun e e' => e.1 ≠ e'.1 := List.pairwise_map.mp (h0.imp SMap.lt_ne)
      exact hin.symm.pairwise h1 (fun h => h.symm)
    refine List.Pairwise.imp_of_mem ?_ hkeys
    rintro e e' he he' hne ⟨hdep, hcov, hcov'⟩
    have hs := (g1.inlines _ _ w1).1
    have q1 := SMap.get?_of_mem hs (hin.mem_iff.mp he)
    have q2 := SMap.get?_of_mem hs (hin.mem_iff.mp he')
    obtain ⟨step, k1, k2, k3, k4⟩ := (t5 e.1).mp ⟨e.2, q1, hcov⟩
    obtain ⟨step', j1, j2, j3, j4⟩ := (t5 e'.1).mp ⟨e'.2, q2, hcov'⟩
    rw [hdep, j1] at k1; cases k1
    have i1 : e.1.callFile = e'.1.callFile := nodup_getElem? hps k3 j3
    have i2 : e.1.originId = e'.1.originId := nodup_getElem? hns k4 j4
    apply hne
    revert hdep k2 j2 i1 i2
    rcases e.1 with ⟨a1, a2, a3, a4⟩
    rcases e'.1 with ⟨b1, b2, b3, b4⟩
    simp only
    rintro rfl rfl h rfl rfl
    rw [h]
  unfold SymFile.framesAt
  rw [hfunc]
  simp only [Option.map_some, Option.some.injEq]
  rw [g2] at r3
  rw [g3] at r4
  rw [t3] at r3
  rw [t4] at r4
  have hsorted : SMap.Sorted sym.source.inlines := (g1.inlines _ _ w1).1
  have hlen := chain_length (s := sym) t5 t6
  have key := framesFrom_read (s := { sym with name := n, parameterSize := k }) (a := a) (cs := cs) (l := l) (c := c) v5 hsorted
    r3 r4 t5 t6 ⟨fileId, l1, by
      rw [path_read r3, ← t3]
      exact l2⟩
  have hinl : (symOf { sym with name := n, parameterSize := k }).inlines.length = sym.source.inlines.length := by
    simp only [symOf, v5, Bool.false_eq_true, if_false]; exact (isort_perm _ _).length_eq
  have hnm : (symOf { sym with name := n, parameterSize := k }).name = n := by unfold symOf; split <;> rfl
  rcases key ((symOf { sym with name := n, parameterSize := k }).inlines.length + 1) 0 n (by rw [hinl]; omega) with e | e
  · rw [hnm, e]; rfl
  · omega

/-- **C67.** The whole way from the debug information to a user of the printed text.  For the first function reported at its
address, under the conditions of C12, and any address of it where no other function has started: reading the printed symbol
file and looking the address up gives the frames of the debug information, the inlined calls with the places they were called
from and the innermost line. -/
theorem C67_symbolicate (env : CEnv) (mem : Mem) (U : List Str) (V : List Name) (platform : Platform) (main : ObjInput)
    (fs : List (Option Func)) (hok : ObjOk env mem U V platform main fs) (name : Str) (pe : Option ObjInput)
    (peName : Option Str) (o : ObjectInfo) (ho : fromObject env true platform main name pe peName = .ok o)
    (extra : Option (List Str)) (hr : o.Readable (extra.getD []))
    (addr : Nat) (f : Func) (rest : List Func) (hfirst : funcsAt fs addr = f :: rest) (hend : f.address + f.size < M32)
    (hwf : f.WF) (hgap : f.InlineesNoGap env.src) (hext : ∀ l ∈ f.lines, l.stop ≤ f.address + f.size)
    (fn : Str) (hfn : Shown env.dm f.name fn) (hname : platform ≠ .win ∨ '(' ∈ fn)
    (path : ByteSlice → FileInfo → Str) (nameOf : Name → Str) (hpr : Printed env path nameOf)
    (a : Nat) (hlo : addr ≤ a) (hhi : a < f.address + f.size) (hbetween : ∀ b, addr < b → b ≤ a → funcsAt fs b = [])
    (l : LineInfo) (c : ByteSlice) (hl : Innermost f a l c) (cs : List CallStep) (hcs : Chain f a cs) :
    ∃ text file, o.display extra = .ok text ∧ readSymFile text = some file ∧
      file.framesAt a = some (debugFrames path nameOf fn cs l c) := by
  obtain ⟨rfl, rfl⟩ := (printed_iff _ _ _).mp hpr
  cases (shown_demangle _ _ _).mp hfn
  obtain ⟨st, sym, s1, s2, s3⟩ := C12_innermost_line env mem U V fs hok.input addr f rest hfirst hend hwf hgap hext
  obtain ⟨st', sym', t1, t2, paths, names, _, _, t3, t4, t5⟩ := C13_inline_chain env mem U V fs hok.input addr f rest hfirst hwf
  rw [originNames_iff] at t4
  rw [s1] at t1; cases t1
  rw [s2] at t2; cases t2
  obtain ⟨t5, t6⟩ := t5 a cs hcs
  simp only [records_iff, exists_eq_left] at t5 t6
  obtain ⟨fileId, _, l1, hrec, l2⟩ := s3 a l c hl
  cases records_iff.mp hrec
  obtain ⟨text, file, s, x1, x2, x3, x4, _⟩ := symbolicate_core hok ho hr hfirst hend hlo hhi hbetween s1 s2 t3 t4 t5 t6 l1 l2
  rw [x4 hname] at x3
  exact ⟨text, file, x1, x2, x3⟩

/-- Without inline information no INLINE record is collected. -/
theorem flat_no_inlines {env : CEnv} {mem : Mem} {U : List Str} {V : List Name} {fs : List (Option Func)}
    (hin : InputOk env mem U V fs) {st : State} (hst : collectFunctions env false fs State.new = .ok st) {addr : Nat}
    {sym : Symbol} (hg : st.syms.get? addr = some sym) (site : InlineSite) : sym.source.inlines.get? site = none := by
  obtain ⟨st', ps, seen, h1, h2, h3, h4, h5⟩ := collected false hin
  rw [hst] at h1; cases h1
  have hg' := h5 ps seen (List.prefix_refl _) (List.prefix_refl _) addr
  cases hf : funcsAt fs addr with
  | nil => rw [hf, hg] at hg'; cases hg'
  | cons f rest =>
    rw [hf, expectSym_none, hg] at hg'
    cases hg'
    have hops : ∀ (ls : List LineInfo) prev q, LOp.inl site q ∉ opsFlat (fidOf env.src ps) f.comp ls prev := by
      intro ls
      induction ls with
      | nil => intro prev q h; cases h
      | cons l ls ih =>
        intro prev q h
        unfold opsFlat at h
        split at h
        · exact ih _ _ h
        · split at h
          · rcases List.mem_cons.mp h with h | h
            · cases h
            · exact ih _ _ h
          · exact ih _ _ h
    have hr : rangesOf site (opsFor env false ps seen f) = [] := by
      cases hx : rangesOf site (opsFor env false ps seen f) with
      | nil => rfl
      | cons q l =>
        have : q ∈ rangesOf site (opsFor env false ps seen f) := by rw [hx]; simp
        exact absurd (mem_rangesOf.mp this) (hops _ _ _)
    obtain ⟨L, e1, e2, _⟩ := C03_inline_ranges (opsFor env false ps seen f) (u32 f.address) (u32 f.size) site (by simp [hr])
    rw [Lines.finalize_eq] at e1; cases e1
    exact e2 hr

/-- **C67, without inline information.** A lookup in the printed text gives the function and the last line entry with a
number that starts at or before the address. -/
theorem C67_symbolicate_flat (env : CEnv) (mem : Mem) (U : List Str) (V : List Name) (platform : Platform) (main : ObjInput)
    (fs : List (Option Func)) (hok : ObjOk env mem U V platform main fs) (name : Str) (pe : Option ObjInput)
    (peName : Option Str) (o : ObjectInfo) (ho : fromObject env false platform main name pe peName = .ok o)
    (extra : Option (List Str)) (hr : o.Readable (extra.getD []))
    (addr : Nat) (f : Func) (rest : List Func) (hfirst : funcsAt fs addr = f :: rest) (hend : f.address + f.size < M32)
    (hsort : f.lines.Pairwise fun l l' => l.address ≤ l'.address) (hb : ∀ l ∈ f.lines, l.address < M32 ∧ l.line < M32)
    (fn : Str) (hfn : Shown env.dm f.name fn) (hname : platform ≠ .win ∨ '(' ∈ fn)
    (path : ByteSlice → FileInfo → Str) (nameOf : Name → Str) (hpr : Printed env path nameOf)
    (a : Nat) (hlo : addr ≤ a) (hhi : a < f.address + f.size) (hbetween : ∀ b, addr < b → b ≤ a → funcsAt fs b = [])
    (before : List LineInfo) (l : LineInfo) (after : List LineInfo) (hl : f.lines = before ++ l :: after) (hl0 : l.line ≠ 0)
    (hla : l.address ≤ a) (hafter : ∀ x ∈ after, x.line ≠ 0 → a < x.address) :
    ∃ text file, o.display extra = .ok text ∧ readSymFile text = some file ∧
      file.framesAt a = some [⟨fn, some (path f.comp l.file), l.line⟩] := by
  obtain ⟨rfl, rfl⟩ := (printed_iff _ _ _).mp hpr
  cases (shown_demangle _ _ _).mp hfn
  obtain ⟨st, sym, s1, s2, s3, _⟩ := C11_lines_without_inlines env mem U V fs hok.input addr f rest hfirst hend hsort hb
  obtain ⟨fileId, _, l1, hrec, l2⟩ := s3 before l after a hl hl0 hla hhi hafter
  cases records_iff.mp hrec
  obtain ⟨st', ps, seen, h1, h2, _⟩ := collected false hok.input
  rw [s1] at h1; cases h1
  have hline : u32 l.line = l.line := u32_of_lt (hb l (by rw [hl]; simp)).2
  rw [← hline] at l1
  obtain ⟨text, file, s, x1, x2, x3, x4, _⟩ := symbolicate_core (c := f.comp) (cs := []) hok ho hr hfirst hend hlo hhi hbetween s1 s2 h2.src.ids_eq h2.org.names
    (by
      intro site
      rw [flat_no_inlines hok.input s1 s2 site]
      simp)
    (by simp) l1 l2
  rw [x4 hname] at x3
  exact ⟨text, file, x1, x2, by simpa [debugFrames, hline] using x3⟩

/-- A library with the functions `f` (in which `g` is inlined, and `h` in `g`) and `f2`, and a public symbol. -/
def symInput : ObjInput := { objOf sid true [] [⟨some (str% "p"), 0x1008, 4⟩] with functions := .ok sampleFs }

def symObj (inlines : Bool) : ObjectInfo := theObj (fromObject sampleCEnv inlines .linux symInput (str% "/lib/f.so") none none)

theorem symInput_ok : ObjOk sampleCEnv sampleMem sampleU sampleV .linux symInput sampleFs :=
  ⟨rfl, sampleInputOk, (by intro es h; cases h), (by intro h; cases h), embeddedInside_of_kind (by intro l h; cases h; rfl)⟩

theorem symObj_readable (inlines : Bool) : (symObj inlines).Readable [] where
  cpu := by cases inlines <;> decide
  debugId := by cases inlines <;> decide
  fileName := by cases inlines <;> decide
  files := by cases inlines <;> decide
  origins := by cases inlines <;> decide
  names := by cases inlines <;> decide
  codeId := by cases inlines <;> (intro c h; cases h)
  peName := by cases inlines <;> (intro c h; cases h)
  extraLines := by simp
  extraCode := by simp
  stack := by cases inlines <;> exact ⟨[str% "CFI 1"], rfl, by decide⟩

/-- The hypotheses of C67 hold, and the frames of an address in `h` inlined into `g` inlined into `f` are those of the three
functions. -/
example : ∃ text file, (symObj true).display none = .ok text ∧ readSymFile text = some file ∧
    file.framesAt 0x1006 = some
      [⟨str% "f()", some (str% "git:x.c"), 10⟩, ⟨str% "g()", some (str% "/c/y.c"), 50⟩, ⟨str% "h()", some (str% "/c/y.c"), 70⟩] := by
  have hg : sampleG.Covers 0x1006 := ⟨_, List.mem_cons_self, ⟨by decide, by decide⟩⟩
  have hh : sampleH.Covers 0x1006 := ⟨_, List.mem_cons_self, ⟨by decide, by decide⟩⟩
  have hcs : Chain sampleF 0x1006 [⟨sampleG.name, ⟨0x1000, some 0x10, sampleFile1, 10⟩, sampleF.comp⟩,
      ⟨sampleH.name, ⟨0x1004, some 4, sampleFile3, 50⟩, sampleG.comp⟩] :=
    .cons _ sampleG _ _ _ (by simp [sampleF, Func.lines]) ⟨by decide, by decide⟩ (by simp [sampleF, Func.inlinees]) hg
      (.cons _ sampleH _ _ _ (by simp [sampleG, Func.lines]) ⟨by decide, by decide⟩ (by simp [sampleG, Func.inlinees]) hh
        (.nil _ _ (by simp [sampleH, Func.inlinees])))
  have hl : Innermost sampleF 0x1006 ⟨0x1006, some 2, sampleFile3, 70⟩ sampleComp :=
    .inl _ sampleG _ _ _ (by simp [sampleF, Func.inlinees]) hg
      (.inl _ sampleH _ _ _ (by simp [sampleG, Func.inlinees]) hh
        (.self _ _ _ (by simp [sampleH, Func.lines]) ⟨by decide, by decide⟩ (by simp [sampleH, Func.inlinees])))
  exact C67_symbolicate sampleCEnv sampleMem sampleU sampleV .linux symInput sampleFs symInput_ok (str% "/lib/f.so") none none
    (symObj true) rfl none (symObj_readable true) 0x1000 sampleF [.mk 0x1000 4 (nm (str% "f2")) sampleComp [] []]
    rfl (by decide) sampleF_wf sampleF_nogap (by decide) (str% "f()") ((shown_demangle _ _ _).mpr rfl) (.inl (by decide))
    _ _ ((printed_iff _ _ _).mpr ⟨rfl, rfl⟩) 0x1006 (by decide) (by decide)
    (by intro b h1 h2; have : b = 0x1001 ∨ b = 0x1002 ∨ b = 0x1003 ∨ b = 0x1004 ∨ b = 0x1005 ∨ b = 0x1006 := by omega
        rcases this with rfl | rfl | rfl | rfl | rfl | rfl <;> rfl)
    _ _ hl _ hcs

/-- The same address without inline information, and one after the public symbol. -/
example : ((symObj false).display none).bind (fun t => .ok ((readSymFile t).map fun f => (f.framesAt 0x1006, f.framesAt 0x1014))) =
    .ok (some (some [⟨str% "f()", some (str% "git:x.c"), 10⟩], some [⟨str% "f()", some (str% "git:x.c"), 11⟩])) := by decide +kernel

example : ((symObj true).display none).bind (fun t => .ok ((readSymFile t).map fun f => (f.framesAt 0x1009, f.framesAt 0x1020))) =
    .ok (some (some [⟨str% "f()", some (str% "git:x.c"), 10⟩, ⟨str% "g()", some (str% "/c/y.c"), 51⟩], none)) := by decide +kernel

end DumpSyms
