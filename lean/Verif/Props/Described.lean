import Verif.Spec.SymbolFile
import Verif.Props.Readable
import Verif.Props.Inputs
import Verif.Props.Run
/-!
# C84: from the file to the symbols, end to end
-/
namespace DumpSyms
open ObjectInfo Collector Reader

/-- What a dump with the surroundings `env` is made from, when the paths are printed by the mapping of `env`. -/
def sourceOf (env : CEnv) (pl : Platform) (main : ObjInput) (fs : List (Option Func)) (ps : List Public) (name : Str) (pe : Option ObjInput)
    (peName : Option Str) (inlines : Bool) : DumpSource :=
  ⟨env, pl, main, fs, ps, name, pe, peName, inlines, fun c r q => ∃ p, env.src.Records c r p ∧ q = (env.src.mapping p).getD p⟩

theorem sourceOf_last {env : CEnv} {pl : Platform} {main : ObjInput} {fs : List (Option Func)} {ps : List Public} {name : Str}
    {pe : Option ObjInput} {peName : Option Str} {inlines : Bool} {o : ObjectInfo}
    (ho : fromObject env inlines pl main name pe peName = .ok o) :
    AfterLast '/' (sourceOf env pl main fs ps name pe peName inlines).givenName o.fileName := by
  rw [(fromObject_header ho).1]
  have : (sourceOf env pl main fs ps name pe peName inlines).givenName = moduleName main name := by
    unfold DumpSource.givenName moduleName sourceOf
    cases main.format <;> cases main.name <;> simp
  rw [this]
  exact ⟨Dumper.fileNameOnly_no_slash _, Dumper.fileNameOnly_suffix _⟩

theorem debugFrames_congr {path path' : ByteSlice → FileInfo → Str} {nameOf : Name → Str} {l : LineInfo} {c : ByteSlice}
    (h : path c l.file = path' c l.file) : ∀ {cs : List CallStep}, (∀ s ∈ cs, path s.callerDir s.callLine.file = path' s.callerDir s.callLine.file) →
      ∀ fn, debugFrames path nameOf fn cs l c = debugFrames path' nameOf fn cs l c
  | [], _, _ => by simp [debugFrames, h]
  | s :: cs, hs, fn => by
    simp only [debugFrames]
    rw [debugFrames_congr h (fun x hx => hs x (by simp [hx])), hs s (by simp)]

theorem Chain.refers {f : Func} {a : Nat} {cs : List CallStep} (h : Chain f a cs) : ∀ s ∈ cs, f.Refers s.callerDir s.callLine.file := by
  induction h with
  | nil => simp
  | cons f g a l cs hl ha hg hga _ ih =>
    intro s hs
    rcases List.mem_cons.mp hs with rfl | hs
    · exact .here f l hl
    · exact .inlined f g _ _ hg (ih s hs)

theorem Innermost.refers {f : Func} {a : Nat} {l : LineInfo} {c : ByteSlice} (h : Innermost f a l c) : f.Refers c l.file := by
  induction h with
  | self f a l hl => exact .here f l hl
  | inl f g a l c hg _ _ ih => exact .inlined f g _ _ hg ih

/-- Lookups in something that gives what the symbol file of a dump gives. -/
theorem answers_of {env : CEnv} {mem : Mem} {U : List Str} {V : List Name} {pl : Platform} {main : ObjInput}
    {fs : List (Option Func)} (hok : ObjOk env mem U V pl main fs) {inlines : Bool} {name : Str} {pe : Option ObjInput}
    {peName : Option Str} {o : ObjectInfo} (ho : fromObject env inlines pl main name pe peName = .ok o) {extra : List Str}
    (hr : o.Readable ((some extra).getD [])) {ps : List Public} (hps : main.Embeds ps) {text : Str} {file : SymFile}
    (a1 : o.display (some extra) = .ok text) (a2 : readSymFile text = some file) {on : Nat → Nat → Prop} {frames : Nat → Option (List Frame)}
    (h : ∀ addr a rec s, on addr a → o.symbols.get? addr = some s → s.isSynthetic = false → file.funcAt a = some rec → rec.rva = addr →
      rec.ClearAt a → frames a = file.framesAt a) :
    (sourceOf env pl main fs (main.publics ++ ps) name pe peName inlines).Answers on frames := by
  have hsrc := C82_sources env mem U V pl main fs hok inlines name pe peName o ho ps hps
  have found : ∀ addr a f, (sourceOf env pl main fs (main.publics ++ ps) name pe peName inlines).FoundAt addr a f → ∀ own,
      Shown env.dm f.name own → ∀ s, o.symbols.get? addr = some s → s.isSynthetic = false →
      FuncName env pl (main.publics ++ ps) addr own s.name := by
    intro addr a f hf own hown s hs hsyn
    obtain ⟨rest, hrest⟩ := hf.first
    have hrest : funcsAt fs addr = f :: rest := hrest
    cases (hsrc addr s hs).2.2 with
    | function f' rest' own' h1 _ _ _ _ h2 h3 _ =>
      rw [hrest] at h1; cases h1
      rw [shown_demangle] at h2 hown
      rw [hown, ← h2]; exact h3
    | entry _ _ _ _ _ _ _ _ _ h => rw [hsyn] at h; cases h
    | pub _ _ _ _ _ _ h => rw [hrest] at h; cases h
    | «section» _ _ _ _ _ _ _ _ h => rw [hsyn] at h; cases h
    | stop _ _ _ h => rw [hsyn] at h; cases h
  have texts : ∀ path nameOf, (sourceOf env pl main fs (main.publics ++ ps) name pe peName inlines).Texts path nameOf →
      nameOf = printedOrigin env ∧ ∀ f, some f ∈ fs → ∀ c r, f.Refers c r → path c r = printedPath env c r := by
    intro path nameOf h
    have h1 : Printed env (printedPath env) nameOf := ⟨((printed_iff _ _ _).mpr ⟨rfl, rfl⟩).path, h.nameOf⟩
    obtain ⟨_, e⟩ := (printed_iff _ _ _).mp h1
    refine ⟨e, fun f hf c r hr => ?_⟩
    exact h.path f hf c r hr _ ⟨_, records_iff.mpr rfl, ((printed_iff env (printedPath env) (printedOrigin env)).mpr ⟨rfl, rfl⟩).path c r _ (records_iff.mpr rfl)⟩
  refine ⟨?_, ?_⟩
  · intro hinl addr a f hf hon hwf hgap hext own hown path nameOf htx l c hl cs hcs
    have hinl : inlines = true := hinl
    subst hinl
    obtain ⟨rfl, hpath⟩ := texts path nameOf htx
    obtain ⟨rest, hfirst⟩ := hf.first
    have hfirst : funcsAt fs addr = f :: rest := hfirst
    obtain ⟨hmem, _, _⟩ := mem_of_funcsAt (show f ∈ funcsAt fs addr by rw [hfirst]; simp)
    obtain ⟨st, sym, s1, s2, s3⟩ := C12_innermost_line env mem U V fs hok.input addr f rest hfirst hf.stop hwf hgap hext
    obtain ⟨st', sym', t1, t2, paths, names, n1, n2, t3, t4, t5⟩ := C13_inline_chain env mem U V fs hok.input addr f rest hfirst hwf
    rw [originNames_iff] at t4
    rw [s1] at t1; cases t1
    rw [s2] at t2; cases t2
    obtain ⟨t5, t6⟩ := t5 a cs hcs
    simp only [records_iff, exists_eq_left] at t5 t6
    obtain ⟨fileId, _, l1, hrec, l2⟩ := s3 a l c hl
    cases records_iff.mp hrec
    obtain ⟨text', file', s, x1, x2, x3, _, x5, x6, x7, x8, x9⟩ := symbolicate_core hok ho hr hfirst hf.stop hf.lo hf.hi hf.alone s1 s2 t3 t4 t5 t6 l1 l2
    rw [a1] at x1; cases x1
    rw [a2] at x2; cases x2
    refine ⟨s.name, found addr a f hf own hown s x5 x6, ?_⟩
    rw [debugFrames_congr (hpath f hmem _ _ hl.refers) (fun s hs => hpath f hmem _ _ (hcs.refers s hs))]
    rw [h addr a _ s hon x5 x6 x7 x8 (x9 n1 n2)]; exact x3
  · intro hinl addr a f hf hon hsort hb own hown path nameOf htx before l after hl hl0 hla hafter
    have hinl : inlines = false := hinl
    subst hinl
    obtain ⟨rfl, hpath⟩ := texts path nameOf htx
    obtain ⟨rest, hfirst⟩ := hf.first
    have hfirst : funcsAt fs addr = f :: rest := hfirst
    obtain ⟨hmem, _, _⟩ := mem_of_funcsAt (show f ∈ funcsAt fs addr by rw [hfirst]; simp)
    obtain ⟨st, sym, s1, s2, s3, _⟩ := C11_lines_without_inlines env mem U V fs hok.input addr f rest hfirst hf.stop hsort hb
    obtain ⟨fileId, _, l1, hrec, l2⟩ := s3 before l after a hl hl0 hla hf.hi hafter
    cases records_iff.mp hrec
    obtain ⟨st', ps', seen', h1, h2, _⟩ := collected false hok.input
    rw [s1] at h1; cases h1
    have hline : u32 l.line = l.line := u32_of_lt (hb l (by rw [hl]; simp)).2
    rw [← hline] at l1
    obtain ⟨text', file', s, x1, x2, x3, _, x5, x6, x7, x8, x9⟩ := symbolicate_core (c := f.comp) (cs := []) hok ho hr hfirst hf.stop hf.lo hf.hi hf.alone
      s1 s2 h2.src.ids_eq h2.org.names (by
        intro site
        rw [flat_no_inlines hok.input s1 s2 site]
        simp) (by simp) l1 l2
    rw [a1] at x1; cases x1
    rw [a2] at x2; cases x2
    refine ⟨s.name, found addr a f hf own hown s x5 x6, ?_⟩
    rw [hpath f hmem _ _ (.here f l (by rw [hl]; simp))]
    rw [h addr a _ s hon x5 x6 x7 x8 (x9 h2.src.nodup h2.org.nodup)]
    simpa [debugFrames, hline] using x3

/-- **C84, the symbol file.** The symbol file printed for a dump whose texts are on one line can be read, and describes what it was
dumped from: the header, the INFO, FILE and STACK records, each FUNC and PUBLIC record, and the frames that lookups of addresses find. -/
theorem C84_described (env : CEnv) (mem : Mem) (U : List Str) (V : List Name) (pl : Platform) (main : ObjInput)
    (fs : List (Option Func)) (hok : ObjOk env mem U V pl main fs) (inlines : Bool) (name : Str) (pe : Option ObjInput)
    (peName : Option Str) (hp : PlainTexts env pl main fs name pe peName) (extra : List Str) (hx : ∀ l ∈ extra, OneLine l)
    (hc : main.codeId = none → (∀ q, pe = some q → q.codeId = none) → ∀ l, extra.head? = some l → ¬ str% "CODE_ID " <+: l)
    (ps : List Public) (hps : main.Embeds ps) :
    ∃ o text file, fromObject env inlines pl main name pe peName = .ok o ∧ o.display (some extra) = .ok text ∧
      readSymFile text = some file ∧ (sourceOf env pl main fs (main.publics ++ ps) name pe peName inlines).Describes extra file := by
  obtain ⟨U', hok', hU'⟩ := hok.referred
  obtain ⟨o, st, paths, seen, ho, g2, g3, g4, _, _, _, _, g5, _⟩ := fromObject_spec hok' inlines name pe peName
  have hr : o.Readable ((some extra).getD []) := C83_readable env mem U V pl main fs hok inlines name pe peName o ho hp extra hx hc
  obtain ⟨text, file, a1, a2, a3, a4, a5, a6, _, a8, a9⟩ := read_display hr (fun e he =>
    (g2.inlines _ _ (SMap.get?_of_mem g2.sorted he)).2)
  obtain ⟨k1, k2, k3, k4, k5, k6, k7⟩ := fromObject_header ho
  refine ⟨o, text, file, ho, a1, a2, ?_⟩
  have hd : Dumped o := ⟨_, env, mem, U, V, pl, main, fs, inlines, name, pe, peName, hok, rfl, ho⟩
  have hsrc := C82_sources env mem U V pl main fs hok inlines name pe peName o ho ps hps
  refine ⟨?_, ?_, ?_, ?_, ?_, ?_, ?_, ?_⟩
  · exact ⟨o.fileName, sourceOf_last ho, by rw [a3, k2, k3, k7]; cases pl <;> rfl⟩
  · rw [a4, k5, k4, Option.map_map]
    have : asciiUpper = Char.toUpper := funext Dumper.asciiUpper_eq
    rw [this]
    rfl
  · exact a5
  · intro i q hq
    rw [a6] at hq
    have hq : q ∈ o.files.getMapping := by
      obtain ⟨j, hj⟩ := List.mem_iff_getElem?.mp hq
      rw [enumFrom_getElem?] at hj
      obtain ⟨x, hx, e⟩ := Option.map_eq_some_iff.mp hj
      cases e
      exact List.mem_of_getElem? hx
    rw [g5] at hq
    have hq : q ∈ paths.map (mapped env.src) := by rw [← g4.src.ids_eq]; exact hq
    obtain ⟨p, hp', rfl⟩ := List.mem_map.mp hq
    obtain ⟨g, c, r, hg, href, rfl⟩ := hU' p (g4.inU p hp')
    exact ⟨g, c, r, hg, href, _, records_iff.mpr rfl, rfl⟩
  · obtain ⟨text', file', b1, b2, b3, _⟩ := C82_printed o hd (some extra) hr
    rw [a1] at b1; cases b1
    rw [a2] at b2; cases b2
    exact b3
  · obtain ⟨text', file', b1, b2, _, b3, b4⟩ := C82_printed o hd (some extra) hr
    rw [a1] at b1; cases b1
    rw [a2] at b2; cases b2
    obtain ⟨c1, c2, c3, c4, c5⟩ := C82_complete env mem U V pl main fs hok inlines name pe peName o ho ps hps
    exact ⟨o.symbols, ⟨fun a s h => (hsrc a s h).2.2, c1, c2, c3, c4, c5⟩, b3, b4⟩
  · exact answers_of hok ho hr hps a1 a2 (fun _ _ _ _ _ _ _ _ _ _ => rfl)
  · rw [← a9, k6]
    unfold getStackInfo
    show _ = ((pe.bind (·.unwind)).or main.unwind).getD []
    cases pe.bind (·.unwind) <;> rfl

end DumpSyms
