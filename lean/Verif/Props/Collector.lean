import Verif.Proof.Names
import Verif.Proof.Lookup
import Verif.Props.Source
/-!
# C08, C10–C14: collecting functions
-/
namespace DumpSyms
open Collector Lines

/-- What a dump has after collecting a list of functions. -/
theorem collected {env : CEnv} {mem : Mem} {U : List Str} {V : List Name} (inlines : Bool) {fs : List (Option Func)}
    (hin : InputOk env mem U V fs) :
    ∃ st ps seen, collectFunctions env inlines fs State.new = .ok st ∧
      TablesOk env mem U V st.src st.org ps seen ∧ st.syms.Sorted ∧
      (∀ a sym, st.syms.get? a = some sym → sym.source.IdsBelow ps.length seen.length ∧ sym.rva = a) ∧
      ∀ psF seenF, ps <+: psF → seen <+: seenF → ∀ a,
        st.syms.get? a = expectSym env inlines psF seenF none (funcsAt fs a) := by
  obtain ⟨st, ps, seen, h1, h2, _, _, h5, h6, h7⟩ :=
    collectFunctions_spec (mem := mem) (U := U) (V := V) inlines fs State.new [] [] hin
      ⟨srcInv_new env.src mem, by simp, ⟨by simp, rfl, by intro n; rfl⟩, by simp⟩
      (by unfold State.new SMap.Sorted; simp) (by intro a sym h; simp [State.new, SMap.get?] at h)
  exact ⟨st, ps, seen, h1, h2, h5, h6, h7⟩

theorem settled_getElem {env : CEnv} {mem : Mem} {s : SourceFiles} {ps : List Str}
    (h : SrcSettled env.src mem s ps) {i : Nat} {p : Str} (hp : ps[i]? = some p) :
    s.idToRef[i]? = some ((env.src.mapping p).getD p) := by
  rw [h.ids_eq, List.getElem?_map, hp]; rfl

/-- **C08.** After collecting any list of functions, in either mode, without failure: the ids the path table assigns are
exactly 0, …, n-1 for n FILE records, different for different paths; the FILE record of a path's id carries the mapped
path; and every id used by a line or inline record is one of them. -/
theorem C08_ids_dense (env : CEnv) (mem : Mem) (U : List Str) (V : List Name) (inlines : Bool) (fs : List (Option Func))
    (hin : InputOk env mem U V fs) :
    ∃ st, collectFunctions env inlines fs State.new = .ok st ∧
      (∀ id, id < st.src.idToRef.length ↔ ∃ p, st.src.refToId.lookup p = some id) ∧
      (∀ p q id, st.src.refToId.lookup p = some id → st.src.refToId.lookup q = some id → p = q) ∧
      (∀ p id, st.src.refToId.lookup p = some id →
        st.src.idToRef[id]? = some ((env.src.mapping p).getD p)) ∧
      (∀ a sym, st.syms.get? a = some sym →
        (∀ l ∈ sym.source.lines, l.fileId < st.src.idToRef.length) ∧
        ∀ e ∈ sym.source.inlines, e.1.callFile < st.src.idToRef.length ∧
          e.1.originId < st.org.demangledNames.length) := by
  obtain ⟨st, ps, seen, h1, h2, h3, h4, _⟩ := collected inlines hin
  have hlk := h2.src.lookup
  have hlen : st.src.idToRef.length = ps.length := by rw [h2.src.ids_eq]; simp
  have hleno : st.org.demangledNames.length = seen.length := by rw [h2.org.names]; simp
  refine ⟨st, h1, ?_, ?_, ?_, ?_⟩
  · intro id
    rw [hlen]
    constructor
    · intro h
      refine ⟨ps[id], ?_⟩
      rw [hlk, if_pos (List.getElem_mem h), List.Nodup.idxOf_getElem h2.src.nodup id h]
    · rintro ⟨p, hp⟩
      rw [hlk] at hp
      split at hp
      · simp at hp; rw [← hp]; exact List.idxOf_lt_length_of_mem (by assumption)
      · cases hp
  · intro p q id hp hq
    rw [hlk] at hp hq
    split at hp
    · split at hq
      · simp at hp hq
        exact idxOf_inj (by assumption) (by assumption) (hp.trans hq.symm)
      · cases hq
    · cases hp
  · intro p id hp
    rw [hlk] at hp
    split at hp
    · simp at hp
      apply settled_getElem h2.src
      rw [← hp]; exact getElem?_idxOf (by assumption)
    · cases hp
  · intro a sym hs
    rw [hlen, hleno]
    exact (h4 a sym hs).1

theorem expectSym_none {env : CEnv} {inlines : Bool} {ps : List Str} {seen : List Name} {f : Func} {rest : List Func} :
    expectSym env inlines ps seen none (f :: rest) =
      some (funcSymbol env f ((Lines.run (opsFor env inlines ps seen f)).finalized (u32 f.address) (u32 f.size))
        (!rest.isEmpty)) := rfl

theorem mem_of_funcsAt {fs : List (Option Func)} {a : Nat} {f : Func} (h : f ∈ funcsAt fs a) :
    some f ∈ fs ∧ f.address ≠ 0 ∧ u32 f.address = a := by
  unfold funcsAt at h
  rw [List.mem_filter, List.mem_filterMap] at h
  obtain ⟨⟨o, ho, he⟩, h2⟩ := h
  simp only [id] at he
  subst he
  exact ⟨ho, by simpa using h2⟩

/-- **C10.** After collecting any list of functions there is a symbol at an address exactly when a function with that
(non-zero) address was reported.  It has the name and size of the first one; it is flagged as multiple exactly when
there were others; and it is the symbol that collecting this first function alone, with the same tables, gives (so it
has its lines and inlines). -/
theorem C10_first_function_wins (env : CEnv) (mem : Mem) (U : List Str) (V : List Name) (inlines : Bool)
    (fs : List (Option Func)) (hin : InputOk env mem U V fs) :
    ∃ st, collectFunctions env inlines fs State.new = .ok st ∧ st.syms.Sorted ∧
      ∀ a, match funcsAt fs a with
        | [] => st.syms.get? a = none
        | f :: rest => ∃ sym, st.syms.get? a = some sym ∧ sym.rva = a ∧ sym.len = u32 f.size ∧
            Shown env.dm f.name sym.name ∧ sym.isPublic = false ∧ sym.isSynthetic = false ∧
            sym.parameterSize = 0 ∧ (sym.isMultiple = true ↔ rest ≠ []) ∧
            ∃ st1, collectFunctions env inlines [some f] { syms := [], src := st.src, org := st.org } = .ok st1 ∧
              st1.syms = [(a, { sym with isMultiple := false })] := by
  obtain ⟨st, ps, seen, h1, h2, h3, h4, h5⟩ := collected inlines hin
  refine ⟨st, h1, h3, ?_⟩
  intro a
  have hg := h5 ps seen (List.prefix_refl _) (List.prefix_refl _) a
  cases hf : funcsAt fs a with
  | nil => rw [hf] at hg; exact hg
  | cons f rest =>
    rw [hf, expectSym_none] at hg
    obtain ⟨hm, hne, ha⟩ := mem_of_funcsAt (show f ∈ funcsAt fs a by rw [hf]; simp)
    refine ⟨_, hg, ha, rfl, (shown_demangle env _ _).mpr rfl, rfl, rfl, rfl, ?_, ?_⟩
    · cases rest <;> simp [funcSymbol]
    · obtain ⟨ops, src1, org1, ps1, seen1, e1, e2, e3⟩ :=
        functionOps_eq hin.paths hin.names (fun l _ => (hin.sort l).1.mem_iff) (hin.funcs f hm) inlines h2
      have hg' := h5 ps1 seen1 e2.psExt e2.seenExt a
      rw [hf, expectSym_none, hg] at hg'
      have hsrc : (run ops).finalized (u32 f.address) (u32 f.size) =
          (run (opsFor env inlines ps seen f)).finalized (u32 f.address) (u32 f.size) := by
        rw [e3 ps1 seen1 (List.prefix_refl _) (List.prefix_refl _)]
        exact (congrArg Symbol.source (Option.some.inj hg')).symm
      refine ⟨{ syms := [(a, funcSymbol env f ((run ops).finalized (u32 f.address) (u32 f.size)) false)],
                src := src1, org := org1 }, ?_, ?_⟩
      · have hex : existingFunc [] (u32 f.address) = none := rfl
        simp only [collectFunctions, collectFunction, if_neg hne, hex, e1, Res.bind_ok, Lines.finalize_eq]
        subst ha; rfl
      · rw [hsrc]; rfl

theorem Innermost.covers {f : Func} (h : f.WF) {a : Nat} {l : LineInfo} {c : ByteSlice} (hi : Innermost f a l c) :
    f.Covers a := by
  cases hi with
  | self _ _ _ hl ha _ => exact ⟨l, hl, ha⟩
  | inl _ g _ _ _ hg ha _ => exact covers_of_inlinee h hg ha

theorem Innermost.all {f : Func} {a : Nat} {l : LineInfo} {c : ByteSlice} (hi : Innermost f a l c)
    {Q : ByteSlice → FileInfo → Prop} {N : Name → Prop} (h : f.All Q N) : Q c l.file := by
  induction hi with
  | self f a l hl ha hn => cases h with | mk _ q n r => exact q l hl
  | inl f g a l c hg ha h' ih => cases h with | mk _ q n r => exact ih (r g hg)

theorem Chain.all {f : Func} {a : Nat} {cs : List CallStep} (hc : Chain f a cs)
    {Q : ByteSlice → FileInfo → Prop} {N : Name → Prop} (h : f.All Q N) :
    ∀ s ∈ cs, Q s.callerDir s.callLine.file ∧ N s.callee := by
  induction hc with
  | nil => simp
  | cons f g a l cs hl ha hg hga h' ih =>
    cases h with
    | mk _ q n r =>
      intro s hs
      rcases List.mem_cons.mp hs with rfl | hs
      · exact ⟨q l hl, n g hg⟩
      · exact ih (r g hg) s hs

theorem adj_imp_mem {α : Type} {R S : α → α → Prop} {l : List α} (h : ∀ a ∈ l, ∀ b ∈ l, R a b → S a b) (hl : Adj R l) :
    Adj S l := by
  induction l with
  | nil => trivial
  | cons a l ih =>
    cases l with
    | nil => trivial
    | cons b l =>
      exact ⟨h a (by simp) b (by simp) hl.1, ih (fun x hx y hy => h x (by simp [hx]) y (by simp [hy])) hl.2⟩

theorem noGapId_of {env : SrcEnv} {mem : Mem} {U : List Str} {N : Name → Prop} {psF : List Str}
    (hps : ∀ p ∈ U, p ∈ psF) {f : Func} (h : f.InlineesNoGap env) (hall : f.All (RefOk env mem U) N) :
    f.InlineesNoGapId (fidOf env psF) := by
  induction h with
  | mk f hg hrec ih =>
    cases hall with
    | mk _ q n r =>
      refine .mk f ?_ (fun g hg' => ih g hg' (r g hg'))
      intro g hg'
      cases r g hg' with
      | mk _ q' n' r' =>
        refine adj_imp_mem ?_ (hg g hg')
        rintro l hl l' hl' himp ⟨e1, e2⟩
        exact himp ⟨e1, _, records_iff.mpr rfl, records_iff.mpr
          (idxOf_inj (hps _ (refOk_iff.mp (q' l hl)).2.1) (hps _ (refOk_iff.mp (q' l' hl')).2.1) e2)⟩

/-- **C11.** With inlines off, for a function (the first reported at its address) whose line table is sorted by address:
looking up, in the collected line records, any address of the function from the start of a non-zero line entry up to the
next non-zero entry gives the entry's line number and a FILE record with its mapped path; no record has line number 0;
and neighbouring records never have the same line and file. -/
theorem C11_lines_without_inlines (env : CEnv) (mem : Mem) (U : List Str) (V : List Name)
    (fs : List (Option Func)) (hin : InputOk env mem U V fs) (addr : Nat) (f : Func) (rest : List Func)
    (hfirst : funcsAt fs addr = f :: rest) (hend : f.address + f.size < M32)
    (hsort : f.lines.Pairwise fun l l' => l.address ≤ l'.address)
    (hb : ∀ l ∈ f.lines, l.address < M32 ∧ l.line < M32) :
    ∃ st sym, collectFunctions env false fs State.new = .ok st ∧ st.syms.get? addr = some sym ∧
      (∀ pre l post a, f.lines = pre ++ l :: post → l.line ≠ 0 → l.address ≤ a → a < f.address + f.size →
        (∀ x ∈ post, x.line ≠ 0 → a < x.address) →
        ∃ fileId p, lookupLine sym.source.lines a = some (l.line, fileId) ∧ env.src.Records f.comp l.file p ∧
          st.src.getMapping.getMapping[fileId]? = some ((env.src.mapping p).getD p)) ∧
      (∀ r ∈ sym.source.lines, r.num ≠ 0) ∧
      (∀ i (h : i + 1 < sym.source.lines.length), (sym.source.lines[i].num, sym.source.lines[i].fileId) ≠
        (sym.source.lines[i + 1].num, sym.source.lines[i + 1].fileId)) := by
  obtain ⟨st, ps, seen, h1, h2, h3, h4, h5⟩ := collected false hin
  obtain ⟨hm, hne, ha⟩ := mem_of_funcsAt (show f ∈ funcsAt fs addr by rw [hfirst]; simp)
  have hg := h5 ps seen (List.prefix_refl _) (List.prefix_refl _) addr
  rw [hfirst, expectSym_none] at hg
  have hu1 : u32 f.address = f.address := u32_of_lt (by omega)
  have hu2 : u32 f.size = f.size := u32_of_lt (by omega)
  refine ⟨st, _, h1, hg, ?_⟩
  have hbelow := (h4 _ _ hg).1
  rw [hu1, hu2] at hbelow ⊢
  simp only [funcSymbol] at hbelow ⊢
  have hopsF : opsFor env false ps seen f = opsFlat (fidOf env.src ps) f.comp f.lines none := rfl
  rw [hopsF] at hbelow ⊢
  have hsub := opsFlat_sublist (fidOf env.src ps) f.comp f.lines none
  have hsorted : (lineEntries (opsFlat (fidOf env.src ps) f.comp f.lines none)).Pairwise fun x y => x.1 ≤ y.1 := by
    rw [← List.pairwise_map (f := fun x : Nat × Nat × Nat => x.1) (R := fun x y => x ≤ y)]
    refine List.Pairwise.sublist hsub ?_
    rw [List.pairwise_map]
    refine List.Pairwise.imp_of_mem ?_ hsort
    intro l l' hl hl' h
    rw [u32_of_lt (hb l hl).1, u32_of_lt (hb l' hl').1]; exact h
  have hb32 : ∀ s n fl, LOp.line s n fl ∈ opsFlat (fidOf env.src ps) f.comp f.lines none → s < M32 := by
    intro s n fl hmem
    have := hsub.subset (List.mem_map.mpr ⟨(s, n, fl), mem_lineEntries.mpr hmem, rfl⟩)
    obtain ⟨l, _, rfl⟩ := List.mem_map.mp this
    exact u32_lt _
  have htr := finalized_sorted_triples hsorted f.address f.size
  obtain ⟨hz, hadj, _⟩ := opsFlat_differ (fidOf env.src ps) f.comp f.lines (fun l hl => (hb l hl).2) none
  refine ⟨?_, ?_, ?_⟩
  · intro pre l post a hl h0 hla haf hpost
    have hmeml : l ∈ f.lines := by rw [hl]; simp
    have hul : u32 l.address = l.address := u32_of_lt (hb l hmeml).1
    have hmempre : ∀ x ∈ pre, x ∈ f.lines := by intro x hx; rw [hl]; simp [hx]
    have hmempost : ∀ x ∈ post, x ∈ f.lines := by intro x hx; rw [hl]; simp [hx]
    have hlast := opsFlat_last (fidOf env.src ps) f.comp pre l post a h0 (by omega)
      (by
        intro x hx
        rw [hul, u32_of_lt (hb x (hmempre x hx)).1]
        rw [hl] at hsort
        exact (List.pairwise_append.mp hsort).2.2 x hx l (by simp))
      (by
        intro x hx hx0
        rw [u32_of_lt (hb x (hmempost x hx)).1]
        exact hpost x hx hx0) none
    rw [← hl] at hlast
    rcases hlast with ⟨h, _⟩ | ⟨p, s, q, he, hs, hq⟩
    · simp at h
    · rw [u32_of_lt (hb l hmeml).2] at he
      refine ⟨fidOf env.src ps f.comp l.file, _, lookup_of_sorted hb32 hsorted hend haf he hs hq, records_iff.mpr rfl, ?_⟩
      apply settled_getElem h2.src
      have hmem : (s, l.line, fidOf env.src ps f.comp l.file) ∈
          lineEntries (opsFlat (fidOf env.src ps) f.comp f.lines none) := by rw [he]; simp
      obtain ⟨r, hr, e1, e2, e3⟩ := finalized_mem f.address f.size (mem_lineEntries.mp hmem)
      have hlt := hbelow.1 r hr
      rw [e3] at hlt
      exact getElem?_idxOf (List.idxOf_lt_length_iff.mp hlt)
  · intro r hr
    have : r.triple ∈ lineEntries (opsFlat (fidOf env.src ps) f.comp f.lines none) := by
      rw [← htr]; exact List.mem_map.mpr ⟨r, hr, rfl⟩
    exact hz _ this
  · intro i hi
    rw [← htr] at hadj
    have := hadj.getElem i (by simpa using hi)
    simpa [Line.triple] using this

/-- **C12.** With inlines on, for the first function reported at its address, if its tree is well-formed and lies
within the function's extent, and no inlinee has two neighbouring line entries of the same line and file with a gap
between them: looking up, in the collected line records, any address with innermost line entry `l` gives `l`'s line
number and a FILE record with its mapped path.  (Every covered address has such an entry: `C12_innermost_exists`.) -/
theorem C12_innermost_line (env : CEnv) (mem : Mem) (U : List Str) (V : List Name)
    (fs : List (Option Func)) (hin : InputOk env mem U V fs) (addr : Nat) (f : Func) (rest : List Func)
    (hfirst : funcsAt fs addr = f :: rest) (hend : f.address + f.size < M32)
    (hwf : f.WF) (hgap : f.InlineesNoGap env.src) (hext : ∀ l ∈ f.lines, l.stop ≤ f.address + f.size) :
    ∃ st sym, collectFunctions env true fs State.new = .ok st ∧ st.syms.get? addr = some sym ∧
      ∀ a l c, Innermost f a l c → ∃ fileId p, lookupLine sym.source.lines a = some (u32 l.line, fileId) ∧
        env.src.Records c l.file p ∧ st.src.getMapping.getMapping[fileId]? = some ((env.src.mapping p).getD p) := by
  obtain ⟨st, ps, seen, h1, h2, h3, h4, h5⟩ := collected true hin
  obtain ⟨hm, hne, ha⟩ := mem_of_funcsAt (show f ∈ funcsAt fs addr by rw [hfirst]; simp)
  obtain ⟨hp1, hp2, hp3⟩ := foldl_addNew U ps h2.src.nodup
  generalize U.foldl addNew ps = psF at hp1 hp2 hp3
  have hg := h5 psF seen hp1 (List.prefix_refl _) addr
  rw [hfirst, expectSym_none] at hg
  have hu1 : u32 f.address = f.address := u32_of_lt (by omega)
  have hu2 : u32 f.size = f.size := u32_of_lt (by omega)
  refine ⟨st, _, h1, hg, ?_⟩
  have hbelow := (h4 _ _ hg).1
  rw [hu1, hu2] at hbelow ⊢
  simp only [funcSymbol] at hbelow ⊢
  have hopsF : opsFor env true psF seen f = opsRec env.us (fidOf env.src psF) (fun n => seen.idxOf n) 0 f := rfl
  rw [hopsF] at hbelow ⊢
  have hclaim := lineClaim hin.sort (fidOf env.src psF) (fun n => seen.idxOf n) hwf 0
    (noGapId_of hp3 hgap (hin.funcs f hm))
  intro a l c hi
  obtain ⟨s, hs, hmem, hu, _⟩ := hclaim.found a l c hi
  obtain ⟨l0, hl0, hc0⟩ := hi.covers hwf
  refine ⟨fidOf env.src psF c l.file, _, lookup_of_agree ?_ hend ?_ hs hmem hu, records_iff.mpr rfl, ?_⟩
  · intro s n fl h
    exact covers_lt hwf (hclaim.starts s n fl h)
  · have := hext l0 hl0
    unfold LineInfo.Covers at hc0
    omega
  · apply settled_getElem h2.src
    obtain ⟨r, hr, e1, e2, e3⟩ := finalized_mem f.address f.size hmem
    have hlt := hbelow.1 r hr
    rw [e3] at hlt
    have hpath : SourceFiles.getPath env.src c l.file ∈ psF := hp3 _ (refOk_iff.mp (hi.all (hin.funcs f hm))).2.1
    obtain ⟨t, rfl⟩ := hp1
    have := getElem?_idxOf hpath
    rw [List.getElem?_append_left (show List.idxOf _ _ < _ from hlt)] at this
    exact this

/-- Every address covered by a well-formed function has an innermost line entry. -/
theorem C12_innermost_exists {f : Func} (h : f.WF) {a : Nat} (ha : f.Covers a) : ∃ l c, Innermost f a l c :=
  innermost_exists h ha

/-- **C13.** With inlines on, for the first function reported at its address, if its tree is well-formed: there are a
numbering of paths (the FILE records, in order, carry their mapped forms) and a numbering of names (the INLINE_ORIGIN
records, in order, carry their texts), both without repetition, such that for every address and its chain of inlined
calls, an inline record covers the address exactly when the entry of the chain at the record's depth has the record's
call line, call file and origin; and the path and name of every call of the chain have a number (so that each call has its
record).  (Every address has a chain: `C13_chain_exists`.) -/
theorem C13_inline_chain (env : CEnv) (mem : Mem) (U : List Str) (V : List Name)
    (fs : List (Option Func)) (hin : InputOk env mem U V fs) (addr : Nat) (f : Func) (rest : List Func)
    (hfirst : funcsAt fs addr = f :: rest) (hwf : f.WF) :
    ∃ st sym, collectFunctions env true fs State.new = .ok st ∧ st.syms.get? addr = some sym ∧
      ∃ (paths : List Str) (names : List Name), paths.Nodup ∧ names.Nodup ∧
        st.src.getMapping.getMapping = paths.map (fun p => (env.src.mapping p).getD p) ∧
        OriginNames env.dm names st.org.getList ∧
        ∀ a cs, Chain f a cs → (∀ site : InlineSite,
          (∃ rs, sym.source.inlines.get? site = some rs ∧ ∃ r ∈ rs, r.Covers a) ↔
          ∃ step, cs[site.depth]? = some step ∧ site.callLine = u32 step.callLine.line ∧
            (∃ p, env.src.Records step.callerDir step.callLine.file p ∧ paths[site.callFile]? = some p) ∧
            names[site.originId]? = some step.callee) ∧
          ∀ step ∈ cs, (∃ p, env.src.Records step.callerDir step.callLine.file p ∧ p ∈ paths) ∧ step.callee ∈ names := by
  obtain ⟨st, ps, seen, h1, h2, h3, h4, h5⟩ := collected true hin
  obtain ⟨hm, hne, ha⟩ := mem_of_funcsAt (show f ∈ funcsAt fs addr by rw [hfirst]; simp)
  have hg := h5 ps seen (List.prefix_refl _) (List.prefix_refl _) addr
  rw [hfirst, expectSym_none] at hg
  refine ⟨st, _, h1, hg, ps, seen, h2.src.nodup, h2.org.nodup, h2.src.ids_eq, (originNames_iff _ _ _).mpr h2.org.names, ?_⟩
  have hbelow := (h4 _ _ hg).1
  simp only [funcSymbol] at hbelow ⊢
  have hopsF : opsFor env true ps seen f = opsRec env.us (fidOf env.src ps) (fun n => seen.idxOf n) 0 f := rfl
  rw [hopsF] at hbelow ⊢
  intro a cs hcs
  simp only [records_iff, exists_eq_left]
  have hkey : ∀ site : InlineSite, (∃ rs, SMap.get? ((run (opsRec env.us (fidOf env.src ps) (fun n => seen.idxOf n) 0 f)).finalized
      (u32 f.address) (u32 f.size)).inlines site = some rs ∧ ∃ r ∈ rs, r.Covers a) ↔
      ∃ q, LOp.inl site q ∈ opsRec env.us (fidOf env.src ps) (fun n => seen.idxOf n) 0 f ∧ q.Covers a := by
    intro site
    obtain ⟨L, e1, e2, e3⟩ := C03_inline_ranges (opsRec env.us (fidOf env.src ps) (fun n => seen.idxOf n) 0 f)
      (u32 f.address) (u32 f.size) site (by
        intro r hr
        exact (inl_inside hin.sort _ _ hwf 0 site r (mem_rangesOf.mp hr)).1)
    have hL : (run (opsRec env.us (fidOf env.src ps) (fun n => seen.idxOf n) 0 f)).finalized
        (u32 f.address) (u32 f.size) = L := by rw [finalize_eq] at e1; exact Res.ok.inj e1
    rw [hL]
    by_cases hr : rangesOf site (opsRec env.us (fidOf env.src ps) (fun n => seen.idxOf n) 0 f) = []
    · rw [e2 hr]
      constructor
      · rintro ⟨rs, h, _⟩; cases h
      · rintro ⟨q, hq, _⟩
        have := mem_rangesOf.mpr hq
        rw [hr] at this; simp at this
    · obtain ⟨rs, g1, _, _, _, g2⟩ := e3 hr
      rw [g1]
      simp only [Option.some.injEq, exists_eq_left']
      rw [g2 a]
      simp only [mem_rangesOf]
  have hsite : ∀ site : InlineSite, (∃ q, LOp.inl site q ∈ opsRec env.us (fidOf env.src ps) (fun n => seen.idxOf n) 0 f ∧ q.Covers a) →
      site.callFile < ps.length ∧ site.originId < seen.length := by
    intro site h
    obtain ⟨rs, hrs, _⟩ := (hkey site).mpr h
    exact hbelow.2 _ (SMap.mem_of_get? hrs)
  refine ⟨?_, ?_⟩
  rotate_left
  · intro step hstep
    obtain ⟨k, hk⟩ := List.mem_iff_getElem?.mp hstep
    obtain ⟨b1, b2⟩ := hsite _ ((inlClaim hin.sort (fidOf env.src ps) (fun n => seen.idxOf n) hwf 0 a cs hcs _).mpr
      ⟨k, step, hk, rfl⟩)
    exact ⟨List.idxOf_lt_length_iff.mp b1, List.idxOf_lt_length_iff.mp b2⟩
  intro site
  have hclaim := inlClaim hin.sort (fidOf env.src ps) (fun n => seen.idxOf n) hwf 0 a cs hcs site
  rw [hkey, hclaim]
  constructor
  · rintro ⟨k, step, hk, hs⟩
    obtain ⟨b1, b2⟩ := hsite site (hclaim.mpr ⟨k, step, hk, hs⟩)
    subst hs
    refine ⟨step, by simpa using hk, rfl, ?_, ?_⟩
    · exact (idxOf_eq_iff h2.src.nodup b1).mp rfl
    · exact (idxOf_eq_iff h2.org.nodup b2).mp rfl
  · rintro ⟨step, hk, e1, e2, e3⟩
    refine ⟨site.depth, step, hk, ?_⟩
    have b1 : site.callFile < ps.length := (List.getElem?_eq_some_iff.mp e2).1
    have b2 : site.originId < seen.length := (List.getElem?_eq_some_iff.mp e3).1
    have c1 := (idxOf_eq_iff h2.src.nodup b1).mpr e2
    have c2 := (idxOf_eq_iff h2.org.nodup b2).mpr e3
    obtain ⟨o, d, cl, cf⟩ := site
    simp only at e1 c1 c2 ⊢
    rw [e1, Nat.zero_add]
    simp only [fidOf, ← c1, ← c2]

/-- Every address has a chain of inlined calls (empty when no inlinee covers it). -/
theorem C13_chain_exists {f : Func} (h : f.WF) (a : Nat) : ∃ cs, Chain f a cs := chain_exists h a

/-- The inlined ranges in a list of events. -/
def callsOf (es : List Ev) : List IRange64 :=
  es.filterMap fun | .self .. => none | .call r _ _ => some r

theorem evLine_calls (num file lineEnd : Nat) (inl : List IRange64) : ∀ cur,
    callsOf (evLine num file lineEnd inl cur).evs ++ (evLine num file lineEnd inl cur).rest = inl := by
  induction inl with
  | nil => intro cur; unfold evLine; split <;> rfl
  | cons r rest ih =>
    intro cur
    unfold evLine
    by_cases h : cur < lineEnd
    · by_cases h2 : r.start < lineEnd
      · have := ih r.stop
        by_cases h3 : r.start > cur
        · simp only [if_pos h, if_pos h2, if_pos h3]
          simp only [callsOf, List.cons_append, List.nil_append, List.filterMap_cons]
          exact congrArg _ this
        · simp only [if_pos h, if_pos h2, if_neg h3]
          simp only [callsOf, List.cons_append, List.nil_append, List.filterMap_cons]
          exact congrArg _ this
      · by_cases h3 : r.start > cur
        · simp only [if_pos h, if_neg h2, if_pos h3]; rfl
        · simp only [if_pos h, if_neg h2, if_neg h3]; rfl
    · simp only [if_neg h]; rfl

theorem evLines_calls (fid : ByteSlice → FileInfo → Nat) (comp : ByteSlice) (ls : List LineInfo) :
    ∀ skipTo inl, callsOf (evLines fid comp ls skipTo inl) <+: inl := by
  induction ls with
  | nil => intro skipTo inl; exact List.nil_prefix
  | cons l ls ih =>
    intro skipTo inl
    unfold evLines
    split
    · exact ih skipTo inl
    · have h1 := evLine_calls (u32 l.line) (fid comp l.file) l.endAddr inl l.address
      generalize evLine (u32 l.line) (fid comp l.file) l.endAddr inl l.address = o at h1
      obtain ⟨t, ht⟩ := ih o.cur o.rest
      refine ⟨t, ?_⟩
      simp only [callsOf, List.filterMap_append] at *
      rw [List.append_assoc, ht, h1]

/-- The inline records added for calls at a given depth, in order: origin id and range. -/
def inlinesAt (depth : Nat) (ops : List LOp) : List (Nat × IRange) :=
  ops.filterMap fun | .line .. => none | .inl site q => if site.depth = depth then some (site.originId, q) else none

theorem emit_inlinesAt (depth : Nat) (es : List Ev) : ∀ prev,
    inlinesAt depth (emit depth es prev) =
      (callsOf es).map fun r => (r.origin, { rva := u32 r.start, len := u32 (wsub64 r.stop r.start) }) := by
  induction es with
  | nil => intro prev; rfl
  | cons e es ih =>
    intro prev
    cases e with
    | self s t n f =>
      unfold emit
      split
      · exact ih _
      · exact ih _
    | call r n f =>
      unfold emit
      simp only [inlinesAt, inlineOp, List.filterMap_cons, callsOf, List.map_cons, if_true]
      exact congrArg _ (ih none)

theorem opsRec_deep {Q : ByteSlice → FileInfo → Prop} {N : Name → Prop} (us : List IRange64 → List IRange64)
    (fid : ByteSlice → FileInfo → Nat) (oid : Name → Nat) {f : Func} (h : f.All Q N) :
    ∀ depth site q, LOp.inl site q ∈ opsRec us fid oid depth f → depth ≤ site.depth := by
  induction h with
  | mk f hl hn hi ih =>
    intro depth site q hm
    rw [opsRec_eq, List.mem_append] at hm
    rcases hm with hm | hm
    · obtain ⟨g, hg, _, hm⟩ := opsInl_mem.mp hm
      have := ih g hg (depth + 1) site q hm
      omega
    · rw [emit_inl_mem] at hm
      obtain ⟨r, n, fl, _, hop⟩ := hm
      simp only [inlineOp, LOp.inl.injEq] at hop
      rw [hop.1]
      exact Nat.le_refl _

theorem opsRec_inlinesAt {Q : ByteSlice → FileInfo → Prop} {N : Name → Prop} (us : List IRange64 → List IRange64)
    (fid : ByteSlice → FileInfo → Nat) (oid : Name → Nat) {f : Func} (h : f.All Q N) (depth : Nat) :
    ∃ k, inlinesAt depth (opsRec us fid oid depth f) =
      ((us (ownRanges oid f)).take k).map fun r =>
        (r.origin, { rva := u32 r.start, len := u32 (wsub64 r.stop r.start) }) := by
  have h0 : inlinesAt depth (opsInl us fid oid depth f.inlinees) = [] := by
    unfold inlinesAt
    rw [List.filterMap_eq_nil_iff]
    intro op hop
    obtain ⟨g, hg, _, hm⟩ := opsInl_mem.mp hop
    cases op with
    | line => rfl
    | inl site q =>
      have hd : depth + 1 ≤ site.depth := by
        cases h with
        | mk _ a b c => exact opsRec_deep us fid oid (c g hg) (depth + 1) site q hm
      have : site.depth ≠ depth := by omega
      simp [this]
  have hk := List.prefix_iff_eq_take.mp (evLines_calls fid f.comp f.lines 0 (us (ownRanges oid f)))
  refine ⟨(callsOf (evLines fid f.comp f.lines 0 (us (ownRanges oid f)))).length, ?_⟩
  rw [opsRec_eq]
  show List.filterMap _ (_ ++ _) = _
  rw [List.filterMap_append]
  change inlinesAt depth _ ++ inlinesAt depth _ = _
  rw [h0, List.nil_append, emit_inlinesAt]
  exact congrArg _ hk

/-- **C14.** After collecting any functions `fs`, collecting any function tree `f` at any depth (well-formed or not)
succeeds; and the inline ranges it records at that depth are, in order, the first `k` of the address ranges of the line
entries of `f`'s direct inlinees, listed in address order, each with the origin id of its inlinee's name.  Addresses and sizes are 64-bit
values; a line entry without a size has size 1. -/
theorem C14_inline_ranges_once (env : CEnv) (mem : Mem) (U : List Str) (V : List Name) (fs : List (Option Func))
    (f : Func) (hin : InputOk env mem U V (some f :: fs)) (h64 : ∀ g ∈ f.inlinees, ∀ l ∈ g.lines, l.address < 2 ^ 64 ∧ l.size.getD 1 < 2 ^ 64)
    (depth : Nat) :
    ∃ st ops src org, collectFunctions env true fs State.new = .ok st ∧
      collectRec env depth f st.src st.org = .ok (ops, src, org) ∧
      ∃ (names : List Name) (R : List (Name × Nat × Nat)) (k : Nat), names.Nodup ∧
        OriginNames env.dm names org.getList ∧
        R.Perm (f.inlinees.flatMap fun g => g.lines.map fun l => (g.name, l.address, l.size.getD 1)) ∧
        R.Pairwise (fun r r' => r.2.1 ≤ r'.2.1) ∧
        (inlinesAt depth ops).map (fun x => (names[x.1]?, x.2)) =
          (R.take k).map fun r => (some r.1, { rva := u32 r.2.1, len := u32 r.2.2 }) := by
  have hin' : InputOk env mem U V fs := ⟨hin.paths, hin.names, hin.sort, fun f hf => hin.funcs f (by simp [hf])⟩
  obtain ⟨st, ps, seen, h1, h2, _, _, _⟩ := collected true hin'
  have hall := hin.funcs f (by simp)
  obtain ⟨ops, src, org, ps', seen', e1, e2, e3⟩ :=
    collectRec_eq hin.paths hin.names (fun l _ => (hin.sort l).1.mem_iff) hall depth st.src st.org ps seen h2
  obtain ⟨hp1, hp2, hp3⟩ := foldl_addNew V seen' e2.tables.org.nodup
  generalize V.foldl addNew seen' = seenF at hp1 hp2 hp3
  have hops := e3 ps' seenF (List.prefix_refl _) hp1
  obtain ⟨k, hk⟩ := opsRec_inlinesAt env.us (fidOf env.src ps') (fun n => seenF.idxOf n) hall depth
  rw [← hops] at hk
  obtain ⟨s1, s2⟩ := hin.sort (ownRanges (fun n => seenF.idxOf n) f)
  have hbelow : ∀ x ∈ inlinesAt depth ops, x.1 < seen'.length := by
    intro x hx
    unfold inlinesAt at hx
    rw [List.mem_filterMap] at hx
    obtain ⟨op, hop, he⟩ := hx
    cases op with
    | line => cases he
    | inl site q =>
      have := e2.below _ hop
      simp only at he
      split at he
      · simp only [Option.some.injEq] at he
        rw [← he]; exact this.2
      · cases he
  refine ⟨st, ops, src, org, h1, e1, seen', (env.us (ownRanges (fun n => seenF.idxOf n) f)).map
    (fun r => ((seenF[r.origin]?).getD ⟨[], false, .c⟩, r.start, wsub64 r.stop r.start)), k, e2.tables.org.nodup, (originNames_iff _ _ _).mpr e2.tables.org.names,
    ?_, ?_, ?_⟩
  · refine (s1.map _).trans (List.Perm.of_eq ?_)
    unfold ownRanges inlineeRanges
    rw [List.map_flatMap, List.flatMap_def, List.flatMap_def]
    congr 1
    apply List.map_congr_left
    intro g hg
    rw [List.map_map]
    apply List.map_congr_left
    intro l hl
    have : g.name ∈ seenF := by
      cases hall with
      | mk _ a b c => exact hp3 _ (b g hg)
    have hw : wsub64 l.endAddr l.address = l.size.getD 1 := by
      obtain ⟨h1, h2⟩ := h64 g hg l hl
      unfold wsub64 LineInfo.endAddr wadd64 M64
      omega
    simp only [Function.comp, getElem?_idxOf this, Option.getD_some, hw]
  · rw [List.pairwise_map]; exact s2
  · have hk2 : ∀ r ∈ (env.us (ownRanges (fun n => seenF.idxOf n) f)).take k, r.origin < seen'.length := by
      intro r hr
      exact hbelow (r.origin, _) (by rw [hk]; exact List.mem_map.mpr ⟨r, hr, rfl⟩)
    rw [hk, ← List.map_take, List.map_map, List.map_map]
    apply List.map_congr_left
    intro r hr
    have hlt := hk2 r hr
    obtain ⟨t, rfl⟩ := hp1
    simp only [Function.comp, List.getElem?_append_left hlt, List.getElem?_eq_getElem hlt, Option.getD_some]

/-! ## Concrete inputs -/

/-- A world for examples. -/
def sampleCEnv : CEnv where
  src := sampleEnv
  dm := fun n => some (n.text ++ str% "()")
  detect := fun _ => .unknown
  us := isort fun r r' => decide (r.start ≤ r'.start)

def sampleMem : Mem where
  bytes := fun r => if r = (100, 2) then [47, 98] else []
  str := fun r => if r = (210, 1) then str% "." else if r = (220, 2) then str% "/c"
    else if r = (320, 3) then str% "y.c" else if r = (300, 3) ∨ r = (310, 3) then str% "x.c" else []

def sampleU : List Str := [str% "/b/x.c", str% "/c/y.c"]

def nm (s : Str) : Name := ⟨s, true, .other 1⟩

/-- `h` is inlined into `g`, `g` into `f`, and `k` into `f`. -/
def sampleH : Func := .mk 0x1006 2 (nm (str% "h")) sampleComp [⟨0x1006, some 2, sampleFile3, 70⟩] []
def sampleG : Func := .mk 0x1004 8 (nm (str% "g")) sampleComp
  [⟨0x1004, some 4, sampleFile3, 50⟩, ⟨0x1008, some 4, sampleFile3, 51⟩] [sampleH]
def sampleK : Func := .mk 0x1014 4 (nm (str% "k")) sampleComp [⟨0x1014, some 4, sampleFile1, 90⟩] []
def sampleF : Func := .mk 0x1000 0x20 (nm (str% "f")) sampleComp
  [⟨0x1000, some 0x10, sampleFile1, 10⟩, ⟨0x1010, some 0x10, sampleFile2, 11⟩] [sampleG, sampleK]
/-- The same address reported again under another name, a function at 0, and one that could not be read. -/
def sampleFs : List (Option Func) :=
  [none, some (.mk 0 8 (nm (str% "z")) sampleComp [] []), some sampleF, some (.mk 0x1000 4 (nm (str% "f2")) sampleComp [] [])]

def sampleV : List Name := [nm (str% "g"), nm (str% "h"), nm (str% "k")]

theorem sampleSort : SortsByStart sampleCEnv.us := by
  intro l
  refine ⟨isort_perm _ l, ?_⟩
  have := isort_sorted (le := fun r r' : IRange64 => decide (r.start ≤ r'.start))
    (by intro a b; simp; omega) (by intro a b c h1 h2; simp at *; omega) l
  exact this.imp (by intro a b h; simpa using h)

theorem sampleRef {f : FileInfo} (h : f ∈ [sampleFile1, sampleFile2, sampleFile3]) :
    RefOk sampleEnv sampleMem sampleU sampleComp f := by
  simp only [List.mem_cons, List.not_mem_nil, or_false] at h
  rcases h with rfl | rfl | rfl <;> (rw [refOk_iff]; unfold Faithful; decide)

theorem sampleAll (f : Func) (hf : f ∈ [sampleF, .mk 0 8 (nm (str% "z")) sampleComp [] [],
    .mk 0x1000 4 (nm (str% "f2")) sampleComp [] []]) :
    f.All (RefOk sampleEnv sampleMem sampleU) (fun n => n ∈ sampleV) := by
  have leaf : ∀ a s n, (Func.mk a s n sampleComp [] []).All (RefOk sampleEnv sampleMem sampleU) (fun n => n ∈ sampleV) := by
    intro a s n
    refine .mk _ ?_ ?_ ?_ <;> simp [Func.lines, Func.inlinees]
  have r1 : RefOk sampleEnv sampleMem sampleU sampleComp sampleFile1 := by rw [refOk_iff]; unfold Faithful; decide
  have r2 : RefOk sampleEnv sampleMem sampleU sampleComp sampleFile2 := by rw [refOk_iff]; unfold Faithful; decide
  have r3 : RefOk sampleEnv sampleMem sampleU sampleComp sampleFile3 := by rw [refOk_iff]; unfold Faithful; decide
  have hh : sampleH.All (RefOk sampleEnv sampleMem sampleU) (fun n => n ∈ sampleV) := by
    refine .mk _ ?_ ?_ ?_ <;> simp [sampleH, Func.lines, Func.inlinees, Func.comp, r3]
  have hk : sampleK.All (RefOk sampleEnv sampleMem sampleU) (fun n => n ∈ sampleV) := by
    refine .mk _ ?_ ?_ ?_ <;> simp [sampleK, Func.lines, Func.inlinees, Func.comp, r1]
  have hg : sampleG.All (RefOk sampleEnv sampleMem sampleU) (fun n => n ∈ sampleV) := by
    refine .mk _ ?_ ?_ ?_
    · simp [sampleG, Func.lines, Func.comp, r3]
    · simp only [sampleG, Func.inlinees]; decide
    · intro g hg; simp [sampleG, Func.inlinees] at hg; subst hg; exact hh
  simp only [List.mem_cons, List.not_mem_nil, or_false] at hf
  rcases hf with rfl | rfl | rfl
  · refine .mk _ ?_ ?_ ?_
    · simp [sampleF, Func.lines, Func.comp, r1, r2]
    · simp only [sampleF, Func.inlinees]; decide
    · intro g hg'
      simp [sampleF, Func.inlinees] at hg'
      rcases hg' with rfl | rfl
      · exact hg
      · exact hk
  · exact leaf _ _ _
  · exact leaf _ _ _

theorem sampleInputOk : InputOk sampleCEnv sampleMem sampleU sampleV sampleFs where
  paths := by decide
  names := by decide
  sort := sampleSort
  funcs := by
    intro f hf
    apply sampleAll f
    simp only [sampleFs, List.mem_cons, List.not_mem_nil, or_false, reduceCtorEq, Option.some.injEq, false_or] at hf ⊢
    rcases hf with h | h | h <;> simp [h]

theorem sampleF_wf : sampleF.WF := by
  have leaf : ∀ a s n c l, l.address < l.stop → l.stop < M32 → (Func.mk a s n c [l] []).WF := by
    intro a s n c l h1 h2
    refine .mk _ ?_ ?_ ?_ ?_ ?_ <;> simp [Func.lines, Func.inlinees, h1, h2]
  have hg : sampleG.WF := by
    refine .mk _ (by decide) (by decide) (by simp [sampleG, Func.inlinees]) (by
      intro g hg l hl
      simp [sampleG, Func.inlinees] at hg; subst hg
      simp [sampleH, Func.lines] at hl; subst hl
      exact ⟨⟨0x1004, some 4, sampleFile3, 50⟩, by decide, by decide, by decide⟩) ?_
    intro g hg
    simp [sampleG, Func.inlinees] at hg; subst hg
    exact leaf _ _ _ _ _ (by decide) (by decide)
  refine .mk _ (by decide) (by decide) ?_ ?_ ?_
  · simp only [sampleF, Func.inlinees, List.pairwise_cons, List.mem_cons, List.not_mem_nil, or_false]
    refine ⟨?_, by simp⟩
    rintro g rfl a ⟨⟨l, hl, h1⟩, ⟨l', hl', h2⟩⟩
    simp only [sampleG, sampleK, Func.lines, List.mem_cons, List.not_mem_nil, or_false] at hl hl'
    subst hl'
    unfold LineInfo.Covers LineInfo.stop at h1 h2
    simp only [Option.getD_some] at h2
    rcases hl with rfl | rfl <;> simp only [Option.getD_some] at h1 <;> omega
  · intro g hg l hl
    simp only [sampleF, Func.inlinees, List.mem_cons, List.not_mem_nil, or_false] at hg
    rcases hg with rfl | rfl
    · simp only [sampleG, Func.lines, List.mem_cons, List.not_mem_nil, or_false] at hl
      refine ⟨⟨0x1000, some 0x10, sampleFile1, 10⟩, by decide, ?_⟩
      rcases hl with rfl | rfl <;> decide
    · simp only [sampleK, Func.lines, List.mem_cons, List.not_mem_nil, or_false] at hl
      refine ⟨⟨0x1010, some 0x10, sampleFile2, 11⟩, by decide, ?_⟩
      subst hl; decide
  · intro g hg
    simp only [sampleF, Func.inlinees, List.mem_cons, List.not_mem_nil, or_false] at hg
    rcases hg with rfl | rfl
    · exact hg
    · exact leaf _ _ _ _ _ (by decide) (by decide)

theorem sampleF_nogap : sampleF.InlineesNoGap sampleEnv := by
  have leaf : ∀ a s n c l, (Func.mk a s n c [l] []).InlineesNoGap sampleEnv := by
    intro a s n c l
    refine .mk _ ?_ ?_ <;> simp [Func.inlinees]
  have hg : sampleG.InlineesNoGap sampleEnv := by
    refine .mk _ ?_ ?_
    · intro g hg; simp [sampleG, Func.inlinees] at hg; subst hg; exact trivial
    · intro g hg; simp [sampleG, Func.inlinees] at hg; subst hg; exact leaf _ _ _ _ _
  refine .mk _ ?_ ?_
  · intro g hg
    simp only [sampleF, Func.inlinees, List.mem_cons, List.not_mem_nil, or_false] at hg
    rcases hg with rfl | rfl
    · refine ⟨?_, trivial⟩
      rintro ⟨h, _⟩; revert h; decide
    · exact trivial
  · intro g hg
    simp only [sampleF, Func.inlinees, List.mem_cons, List.not_mem_nil, or_false] at hg
    rcases hg with rfl | rfl
    · exact hg
    · exact leaf _ _ _ _ _

/-- The hypotheses of C08, C10, C12 and C13 hold of the sample. -/
example : InputOk sampleCEnv sampleMem sampleU sampleV sampleFs ∧
    funcsAt sampleFs 0x1000 = [sampleF, .mk 0x1000 4 (nm (str% "f2")) sampleComp [] []] ∧ sampleF.WF ∧
    sampleF.InlineesNoGap sampleCEnv.src ∧ (∀ l ∈ sampleF.lines, l.stop ≤ sampleF.address + sampleF.size) ∧
    sampleF.address + sampleF.size < M32 :=
  ⟨sampleInputOk, rfl, sampleF_wf, sampleF_nogap, by decide, by decide⟩

set_option synthInstance.maxSize 2000 in
/-- What the collector makes of the sample. -/
example : (collectFunctions sampleCEnv true sampleFs State.new).bind (fun st =>
      .ok (st.syms.map fun e => (e.2.name, e.2.isMultiple, e.2.source.lines.map Line.triple))) =
    .ok [(str% "f()", true,
        [(0x1000, 10, 1), (0x1004, 50, 0), (0x1006, 70, 0), (0x1008, 51, 0), (0x100c, 10, 1), (0x1010, 11, 1),
         (0x1014, 90, 1), (0x1018, 11, 1)])] := by decide

example : (collectFunctions sampleCEnv true sampleFs State.new).bind (fun st =>
      .ok (st.syms.map (fun e => e.2.source.inlines.map fun i => (i.1, i.2)), st.src.idToRef, st.org.demangledNames)) =
    .ok ([[(⟨0, 0, 10, 1⟩, [⟨0x1004, 8⟩]), (⟨1, 1, 50, 0⟩, [⟨0x1006, 2⟩]), (⟨2, 0, 11, 1⟩, [⟨0x1014, 4⟩])]],
      [str% "/c/y.c", str% "git:x.c"], [str% "g()", str% "h()", str% "k()"]) := by decide

example : (collectFunctions sampleCEnv false sampleFs State.new).bind (fun st =>
      .ok (st.syms.map fun e => e.2.source.lines.map Line.triple)) =
    .ok [[(0x1000, 10, 0), (0x1010, 11, 0)]] := by decide

/-! ## C12 needs both of its shape conditions -/

/-- The same line of an inlinee in two pieces with code of the caller between them. -/
def gapG : Func := .mk 0x1004 12 (nm (str% "g")) sampleComp
  [⟨0x1004, some 4, sampleFile3, 50⟩, ⟨0x100c, some 4, sampleFile3, 50⟩] []
def gapF : Func := .mk 0x1000 0x20 (nm (str% "f")) sampleComp [⟨0x1000, some 0x20, sampleFile1, 10⟩] [gapG]

/-- With a well-formed tree whose only defect is that an inlinee's line comes in two pieces, the second piece is attributed
to the caller: address 0x100d is in line 50 of the inlinee, the records say line 10.  The full C12 is false. -/
theorem C12_gap_witness : gapF.WF ∧
    Innermost gapF 0x100d ⟨0x100c, some 4, sampleFile3, 50⟩ sampleComp ∧
    (collectFunctions sampleCEnv true [some gapF] State.new).bind (fun st =>
      .ok ((st.syms.get? 0x1000).map fun sym => lookupLine sym.source.lines 0x100d)) = .ok (some (some (10, 1))) := by
  refine ⟨?_, ?_, by decide⟩
  · refine .mk _ (by decide) (by decide) (by simp [gapF, Func.inlinees]) ?_ ?_
    · intro g hg l hl
      simp only [gapF, Func.inlinees, List.mem_cons, List.not_mem_nil, or_false] at hg
      subst hg
      simp only [gapG, Func.lines, List.mem_cons, List.not_mem_nil, or_false] at hl
      refine ⟨⟨0x1000, some 0x20, sampleFile1, 10⟩, by decide, ?_⟩
      rcases hl with rfl | rfl <;> decide
    · intro g hg
      simp only [gapF, Func.inlinees, List.mem_cons, List.not_mem_nil, or_false] at hg
      subst hg
      refine .mk _ (by decide) (by decide) ?_ ?_ ?_ <;> simp [gapG, Func.inlinees]
  · refine .inl _ gapG _ _ _ (by simp [gapF, Func.inlinees]) ⟨⟨0x100c, some 4, sampleFile3, 50⟩, by decide, by decide, by decide⟩ ?_
    exact .self gapG _ _ (by decide) ⟨by decide, by decide⟩ (by simp [gapG, Func.inlinees])

/-- An inlinee's line straddling two lines of the caller. -/
def straddleG : Func := .mk 0x1004 8 (nm (str% "g")) sampleComp [⟨0x1004, some 8, sampleFile3, 50⟩] []
def straddleF : Func := .mk 0x1000 0x10 (nm (str% "f")) sampleComp
  [⟨0x1000, some 8, sampleFile1, 10⟩, ⟨0x1008, some 8, sampleFile1, 11⟩] [straddleG]

/-- An inlinee that starts in one line of the caller and ends in the next hides the rest of that next line: address
0x100e is in line 11 of the caller and in no inlinee, the records say line 50 (of the inlinee). -/
theorem C12_straddle_witness :
    Innermost straddleF 0x100e ⟨0x1008, some 8, sampleFile1, 11⟩ sampleComp ∧
    (∀ a, straddleG.Covers a → straddleF.Covers a) ∧
    (collectFunctions sampleCEnv true [some straddleF] State.new).bind (fun st =>
      .ok ((st.syms.get? 0x1000).map fun sym => lookupLine sym.source.lines 0x100e)) = .ok (some (some (50, 0))) := by
  refine ⟨?_, ?_, by decide⟩
  · refine .self straddleF _ _ (by decide) ⟨by decide, by decide⟩ ?_
    intro g hg
    simp only [straddleF, Func.inlinees, List.mem_cons, List.not_mem_nil, or_false] at hg
    subst hg
    rintro ⟨l, hl, hc⟩
    simp only [straddleG, Func.lines, List.mem_cons, List.not_mem_nil, or_false] at hl
    subst hl
    exact absurd hc.2 (by decide)
  · rintro a ⟨l, hl, h1, h2⟩
    simp only [straddleG, Func.lines, List.mem_cons, List.not_mem_nil, or_false] at hl
    subst hl
    simp only [LineInfo.stop, Option.getD_some] at h1 h2
    by_cases h : a < 0x1008
    · exact ⟨⟨0x1000, some 8, sampleFile1, 10⟩, by decide, by simp only; omega, by simp only [LineInfo.stop, Option.getD_some]; omega⟩
    · exact ⟨⟨0x1008, some 8, sampleFile1, 11⟩, by decide, by simp only; omega, by simp only [LineInfo.stop, Option.getD_some]; omega⟩

/-- The hypotheses of C14 hold of this malformed tree too. -/
example (depth : Nat) : ∃ st ops src org, collectFunctions sampleCEnv true [] State.new = .ok st ∧
    collectRec sampleCEnv depth straddleF st.src st.org = .ok (ops, src, org) ∧ ∃ k, (inlinesAt depth ops).map (·.2) = [⟨0x1004, 8⟩].take k := by
  obtain ⟨st, ops, src, org, h1, h2, _, R, k, _, _, h3, _, h4⟩ := C14_inline_ranges_once sampleCEnv sampleMem sampleU sampleV [] straddleF
    ⟨by decide, by decide, sampleSort, by
      intro f hf
      simp only [List.mem_cons, Option.some.injEq, List.not_mem_nil, or_false] at hf
      subst hf
      refine .mk _ (fun l hl => sampleRef (by simp [straddleF, Func.lines] at hl; rcases hl with rfl | rfl <;> simp)) (fun g hg => ?_) (fun g hg => ?_)
      · simp only [straddleF, Func.inlinees, List.mem_cons, List.not_mem_nil, or_false] at hg
        subst hg; decide
      · simp only [straddleF, Func.inlinees, List.mem_cons, List.not_mem_nil, or_false] at hg
        subst hg
        exact .mk _ (fun l hl => sampleRef (by simp [straddleG, Func.lines] at hl; subst hl; simp)) (fun g hg => by cases hg) (fun g hg => by cases hg)⟩
    (by intro g hg l hl
        simp only [straddleF, Func.inlinees, List.mem_cons, List.not_mem_nil, or_false] at hg
        subst hg
        simp only [straddleG, Func.lines, List.mem_cons, List.not_mem_nil, or_false] at hl
        subst hl; decide) depth
  refine ⟨st, ops, src, org, h1, h2, k, ?_⟩
  have hR : R = [(nm (str% "g"), 0x1004, 8)] := by
    have : R.Perm [(nm (str% "g"), 0x1004, 8)] := h3
    exact List.perm_singleton.mp this
  subst hR
  have := congrArg (List.map Prod.snd) h4
  rw [List.map_map, List.map_map] at this
  rw [List.map_take] at this
  exact this

end DumpSyms
