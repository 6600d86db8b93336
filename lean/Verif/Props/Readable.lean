import Verif.Spec.Plain
import Verif.Props.Records
import Verif.Props.MappedPaths
import Verif.Props.MergeFrames
/-!
# C83: a file whose texts are on one line is dumped to a symbol file that can be read back
-/
namespace DumpSyms
open ObjectInfo Collector Reader

theorem asciiUpper_not_whitespace {c : Char} (h : isWhitespace c = false) : isWhitespace (asciiUpper c) = false := by
  unfold asciiUpper
  split
  · rename_i hc
    have h1 : 97 ≤ c.toNat := hc.1
    have h2 : c.toNat ≤ 122 := hc.2
    generalize c.toNat = n at h1 h2
    clear h hc
    have key : ∀ k < 26, isWhitespace (Char.ofNat (k + 97 - 32)) = false := by decide
    have := key (n - 97) (by omega)
    rwa [show n - 97 + 97 = n by omega] at this
  · exact h

/-- The header of a dump. -/
theorem fromObject_header {env : CEnv} {inlines : Bool} {pl : Platform} {main : ObjInput} {name : Str} {pe : Option ObjInput}
    {peName : Option Str} {o : ObjectInfo} (h : fromObject env inlines pl main name pe peName = .ok o) :
    o.fileName = fileNameOnly (moduleName main name) ∧ o.cpu = main.arch ∧ o.debugId = main.debugId ∧ o.peName = peName ∧
      o.codeId = ((pe.bind (·.codeId)).or main.codeId).map (fun c => c.map asciiUpper) ∧ o.stack = getStackInfo main pe ∧ o.platform = pl := by
  unfold fromObject at h
  split at h
  · cases h
  · rename_i fs hfs
    cases hc : collect env inlines pl main name peName fs with
    | ok st => rw [hc] at h; cases h; exact ⟨rfl, rfl, rfl, rfl, rfl, rfl, rfl⟩
    | err m => rw [hc] at h; cases h
    | panic => rw [hc] at h; cases h

theorem OneLine.append {a b : Str} (ha : OneLine a) (hb : OneLine b) : OneLine (a ++ b) := by
  unfold OneLine at *
  simp [ha, hb]

theorem PlainTexts.pub {env : CEnv} {pl : Platform} {main : ObjInput} {fs : List (Option Func)} {name : Str} {pe : Option ObjInput}
    {peName : Option Str} (h : PlainTexts env pl main fs name pe peName) {ps : List Public} (hps : main.Embeds ps) {p : Public}
    (hp : p ∈ main.publics ++ ps) {t : Str} {k : Nat} (hs : PublicShown env pl p t k) : OneLine t := by
  rcases List.mem_append.mp hp with hp | hp
  · exact h.publics _ (.inl rfl) p hp t k hs
  · exact h.publics _ (.inr hps) p hp t k hs

theorem PlainTexts.funcName {env : CEnv} {pl : Platform} {main : ObjInput} {fs : List (Option Func)} {name : Str} {pe : Option ObjInput}
    {peName : Option Str} (h : PlainTexts env pl main fs name pe peName) {ps : List Public} (hps : main.Embeds ps) {a : Nat} {own t : Str}
    (ho : OneLine own) (hf : FuncName env pl (main.publics ++ ps) a own t) : OneLine t := by
  rcases hf with rfl | ⟨hpl, _, p, hp, _, q, base, size, h1, h2, h3⟩
  · exact ho
  · refine h.pub hps hp (k := size.getD 0) ⟨?_, ?_⟩
    · intro e; rw [h1] at e; cases e
    · intro n hn
      rw [h1] at hn; cases hn
      refine ⟨fun e => absurd hpl e, fun _ base' size' h' => ?_⟩
      obtain ⟨rfl, rfl⟩ := h2.unique h'
      exact ⟨h3, rfl⟩

theorem oneLine_unknownIn {m : Str} (h : OneLine m) : OneLine (UnknownIn m) := by
  unfold UnknownIn
  split
  · unfold OneLine; decide
  · exact (OneLine.append (by unfold OneLine; decide) h).append (by unfold OneLine; decide)

/-- What a symbol of a dump stands for has a name on one line. -/
theorem PlainTexts.symbol {env : CEnv} {pl : Platform} {main : ObjInput} {fs : List (Option Func)} {name : Str} {pe : Option ObjInput}
    {peName : Option Str} (h : PlainTexts env pl main fs name pe peName) {ps : List Public} (hps : main.Embeds ps) {m : Symbols} {a : Nat}
    {s : Symbol} (hs : StandsFor env pl main fs (main.publics ++ ps) name peName m a s) : OneLine s.name := by
  cases hs with
  | function f rest own hf _ _ _ _ hsh hn _ =>
    obtain ⟨hm, _, _⟩ := mem_of_funcsAt (show f ∈ funcsAt fs a by rw [hf]; simp)
    exact h.funcName hps (h.functions f hm own hsh) hn
  | entry es e _ _ _ _ _ _ _ _ _ _ hn _ =>
    refine h.funcName hps (oneLine_unknownIn ?_) hn
    cases peName with
    | none => exact h.name
    | some p => exact (h.peName p rfl).1
  | pub before p after hp _ _ _ _ _ _ _ hsh _ =>
    exact h.pub hps (by rw [hp]; simp) hsh
  | «section» before x after hk _ _ _ _ _ _ _ _ hn =>
    rw [hn]
    have h1 : OneLine (x.name.getD (str% "unknown")) := by
      cases hx : x.name with
      | none => unfold OneLine; decide
      | some n => exact h.sections _ hk x (by simp) n hx
    have h2 : OneLine (if name = [] then str% "unknown" else name) := by
      split
      · unfold OneLine; decide
      · exact h.name
    exact (((OneLine.append (by unfold OneLine; decide) h1).append (by unfold OneLine; decide)).append h2).append (by unfold OneLine; decide)
  | stop _ _ _ _ _ _ _ hn => rw [hn]; exact oneLine_unknownIn h.name

/-- **C83.** A dumped file whose texts are on one line gives a module that can be read back: when its architecture and ids have no blanks,
its names, paths and unwind records are on one line each, and the INFO lines asked for are too, nothing in the printed symbol file can be
mistaken for something else.  (An INFO line that starts like a code id would be taken for one in a module that has none.) -/
theorem C83_readable (env : CEnv) (mem : Mem) (U : List Str) (V : List Name) (pl : Platform) (main : ObjInput)
    (fs : List (Option Func)) (hok : ObjOk env mem U V pl main fs) (inlines : Bool) (name : Str) (pe : Option ObjInput)
    (peName : Option Str) (o : ObjectInfo) (ho : fromObject env inlines pl main name pe peName = .ok o)
    (hp : PlainTexts env pl main fs name pe peName) (extra : List Str) (hx : ∀ l ∈ extra, OneLine l)
    (hc : main.codeId = none → (∀ q, pe = some q → q.codeId = none) → ∀ l, extra.head? = some l → ¬ str% "CODE_ID " <+: l) :
    o.Readable extra := by
  obtain ⟨k1, k2, k3, k4, k5, k6, _⟩ := fromObject_header ho
  obtain ⟨ps, hps, _⟩ := C76_embedded_partial env inlines pl main name pe peName hok.embedded
  obtain ⟨U', hok', hU'⟩ := hok.referred
  obtain ⟨o', st, paths, seen, g1, g2, g3, g4, _, _, _, _, g5, g6, _⟩ := fromObject_spec hok' inlines name pe peName
  rw [ho] at g1; cases g1
  refine ⟨?_, ?_, ?_, ?_, ?_, ?_, ?_, ?_, hx, ?_, ?_⟩
  · rw [k2]; exact hp.arch
  · rw [k3]; exact hp.debugId
  · rw [k1]
    have hn : OneLine (moduleName main name) := by
      unfold moduleName
      split
      · cases hm : main.name with
        | none => exact hp.name
        | some n => exact hp.ownName n hm
      · exact hp.name
    intro hmem
    obtain ⟨pre, hpre, _⟩ := Dumper.fileNameOnly_suffix (moduleName main name)
    apply hn
    rw [hpre]
    exact List.mem_append_right _ hmem
  · intro q hq
    rw [g5] at hq
    have hq : q ∈ paths.map (mapped env.src) := by rw [← g4.src.ids_eq]; exact hq
    obtain ⟨p, hp', rfl⟩ := List.mem_map.mp hq
    obtain ⟨g, c, r, hg, href, rfl⟩ := hU' p (g4.inU p hp')
    exact hp.paths g hg c r href _ (records_iff.mpr rfl)
  · intro n hn
    rw [g6] at hn
    have hn : n ∈ seen.map (InlineOrigins.demangleAndSanitize env.dm) := by rw [← g4.org.names]; exact hn
    obtain ⟨x, _, rfl⟩ := List.mem_map.mp hn
    intro hmem
    obtain ⟨s, _, hs⟩ := (originName_iff env.dm x _).mpr rfl
    rw [hs] at hmem
    have := (List.mem_filter.mp hmem).2
    revert this
    decide
  · intro e he
    have hg := SMap.get?_of_mem g2.sorted he
    exact hp.symbol hps (C82_sources env mem U V pl main fs hok inlines name pe peName o ho ps hps _ _ hg).2.2
  · intro c hc'
    rw [k5] at hc'
    obtain ⟨d, hd, rfl⟩ := Option.map_eq_some_iff.mp hc'
    have : main.codeId = some d ∨ (∃ q, pe = some q ∧ q.codeId = some d) := by
      cases pe with
      | none => exact .inl (by simpa using hd)
      | some q =>
        cases hq : q.codeId with
        | none => rw [Option.bind_some, hq] at hd; exact .inl (by simpa using hd)
        | some c' => rw [Option.bind_some, hq] at hd; exact .inr ⟨q, rfl, by rw [hq]; simpa using hd⟩
    obtain ⟨e1, e2⟩ := hp.codeId d this
    refine ⟨by simpa using e1, ?_⟩
    intro x hx
    obtain ⟨y, hy, rfl⟩ := List.mem_map.mp hx
    exact asciiUpper_not_whitespace (e2 y hy)
  · rw [k4]; exact hp.peName
  · intro hn
    rw [k5] at hn
    have hn : (pe.bind (·.codeId)).or main.codeId = none := by simpa using hn
    obtain ⟨h1, h2⟩ := Option.or_eq_none_iff.mp hn
    refine hc h2 ?_
    rintro q rfl
    simpa using h1
  · rw [k6]
    unfold getStackInfo
    split
    · rename_i t ht
      obtain ⟨q, hq, ht⟩ := Option.bind_eq_some_iff.mp ht
      exact hp.unwind t (.inr ⟨q, hq, ht⟩)
    · cases hu : main.unwind with
      | none => exact ⟨[], rfl, by simp⟩
      | some t => exact hp.unwind t (.inl hu)

/-! ## Examples -/

theorem sample_paths (f : Func) (hf : some f ∈ sampleFs) (c : ByteSlice) (i : FileInfo) (h : f.Refers c i) (p : Str)
    (hp : sampleEnv.Records c i p) : OneLine ((sampleEnv.mapping p).getD p) := by
  obtain ⟨_, h2, _⟩ := refOk_iff.mp ((sampleInputOk.funcs f hf).refers h)
  cases records_iff.mp hp
  have key : ∀ q ∈ sampleU, '\n' ∉ (sampleEnv.mapping q).getD q := by decide
  exact key _ h2

theorem sample_functions (f : Func) (hf : some f ∈ sampleFs) (t : Str) (h : Shown sampleCEnv.dm f.name t) : OneLine t := by
  cases (shown_demangle _ _ _).mp h
  have key : ∀ g ∈ sampleFs.filterMap id, '\n' ∉ Collector.demangle sampleCEnv g.name := by decide
  exact key f (by simpa [List.mem_filterMap] using hf)

/-- The texts of the PE of C82's example are on one line. -/
theorem recInput_plain : PlainTexts sampleCEnv .win recInput sampleFs (str% "f.dll") none (some (str% "g.dll")) where
  arch := by unfold Unbroken; decide
  debugId := by unfold Unbroken; decide
  codeId := by rintro c (h | ⟨q, h, _⟩) <;> cases h
  name := by unfold OneLine; decide
  ownName := by intro n h; cases h; unfold OneLine; decide
  peName := by intro p h; cases h; exact ⟨by unfold OneLine; decide, 'l', rfl, by decide⟩
  paths := sample_paths
  functions := sample_functions
  publics := by
    intro ps hps p hp t k ht
    rcases hps with rfl | hps
    · simp only [recInput, List.mem_cons, List.not_mem_nil, or_false] at hp
      rcases hp with rfl | rfl | rfl | rfl | rfl | rfl
      · obtain ⟨h, _⟩ := (ht.2 _ rfl).2 rfl (str% "f2") (some 8) ((C41_decorated _ _ _).mp (by decide))
        cases (publicName_iff _ _ _).mp h; unfold OneLine; decide
      · obtain ⟨h, _⟩ := (ht.2 _ rfl).2 rfl (str% "p") (some 12) ((C41_decorated _ _ _).mp (by decide))
        cases (publicName_iff _ _ _).mp h; unfold OneLine; decide
      · obtain ⟨h, _⟩ := (ht.2 _ rfl).2 rfl (str% "q") none ((C41_decorated _ _ _).mp (by decide))
        cases (publicName_iff _ _ _).mp h; unfold OneLine; decide
      · obtain ⟨h, _⟩ := (ht.2 _ rfl).2 rfl _ _ ((C41_decorated _ _ _).mp rfl)
        cases (publicName_iff _ _ _).mp h; unfold OneLine; decide
      · obtain ⟨h, _⟩ := (ht.2 _ rfl).2 rfl (str% "r") (some 4) ((C41_decorated _ _ _).mp (by decide))
        cases (publicName_iff _ _ _).mp h; unfold OneLine; decide
      · rw [(ht.1 rfl).1]; unfold OneLine; decide
    · obtain ⟨r, h1, h2⟩ := (embeds_iff recInput_ok.embedded ps).mp hps
      cases h1; subst h2; cases hp
  sections := by intro hs h; cases h
  unwind := by
    rintro t (h | ⟨q, h, _⟩) <;> cases h
    exact ⟨[str% "CFI 1"], rfl, by intro l hl; simp at hl; subst hl; unfold OneLine; decide⟩

/-- C83 for this PE. -/
example : recObj.Readable [str% "GENERATOR x"] :=
  C83_readable sampleCEnv sampleMem sampleU sampleV .win recInput sampleFs recInput_ok true (str% "f.dll") none (some (str% "g.dll")) recObj rfl
    recInput_plain [str% "GENERATOR x"] (by intro l hl; simp at hl; subst hl; unfold OneLine; decide)
    (by intro _ _ l hl; cases hl; decide)

/-- C83 for a merge. -/
example : ∃ M, ObjectInfo.merge id (symObj true) (theObj (dumpOf mD)) = .ok M ∧ M.Readable [] :=
  ⟨_, rfl, C83_merged id _ _ _ [] (symObj_readable true) mD_readable rfl⟩

/-- Why names have to be on one line: the second line of a name is read as a record of its own. -/
theorem C83_newline_witness : ∃ t file, ({ recObj with fileName := str% "x\nSTACK CFI 7" } : ObjectInfo).display none = .ok t ∧
    readSymFile t = some file ∧ file.stack.head? = some (str% "CFI 7") :=
  ⟨_, _, rfl, rfl, by decide⟩

end DumpSyms
