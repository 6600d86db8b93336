import Verif.Model.Main
import Verif.Props.Output
import Verif.Proof.Mapping
/-!
# C55, C64: the command line
-/
namespace DumpSyms
namespace Main
open ObjectInfo

/-- An acceptable value of `--extra-info`: upper-case letters and underscores, at least one, then a space, then anything. -/
def InfoLine (s : Str) : Prop := ∃ k r, s = k ++ ' ' :: r ∧ k ≠ [] ∧ ∀ c ∈ k, ('A' ≤ c ∧ c ≤ 'Z') ∨ c = '_'

theorem isKeywordChar_iff (c : Char) : isKeywordChar c = true ↔ ('A' ≤ c ∧ c ≤ 'Z') ∨ c = '_' := by
  simp [isKeywordChar]

theorem afterKeyword_iff (s : Str) :
    afterKeyword s = true ↔ ∃ k r, s = k ++ ' ' :: r ∧ ∀ c ∈ k, ('A' ≤ c ∧ c ≤ 'Z') ∨ c = '_' := by
  induction s with
  | nil => simp [afterKeyword]
  | cons c cs ih =>
    unfold afterKeyword
    by_cases hc : isKeywordChar c = true
    · rw [if_pos hc, ih]
      constructor
      · rintro ⟨k, r, rfl, hk⟩
        refine ⟨c :: k, r, rfl, ?_⟩
        intro x hx
        rcases List.mem_cons.mp hx with rfl | hx
        · exact (isKeywordChar_iff _).mp hc
        · exact hk x hx
      · rintro ⟨k, r, h, hk⟩
        cases k with
        | nil =>
          simp only [List.nil_append, List.cons.injEq] at h
          rw [h.1] at hc; exact absurd hc (by decide)
        | cons d k =>
          simp only [List.cons_append, List.cons.injEq] at h
          exact ⟨k, r, h.2, fun x hx => hk x (by simp [hx])⟩
    · rw [if_neg hc]
      constructor
      · intro h
        have : c = ' ' := by simpa using h
        exact ⟨[], cs, by rw [this]; rfl, by simp⟩
      · rintro ⟨k, r, h, hk⟩
        cases k with
        | nil =>
          simp only [List.nil_append, List.cons.injEq] at h
          simp [h.1]
        | cons d k =>
          simp only [List.cons_append, List.cons.injEq] at h
          exact absurd ((isKeywordChar_iff c).mpr (hk c (by rw [h.1]; simp))) hc

theorem infoLineMatches_iff (s : Str) : infoLineMatches s = true ↔ InfoLine s := by
  cases s with
  | nil => simp [infoLineMatches, InfoLine]
  | cons c cs =>
    unfold infoLineMatches InfoLine
    rw [Bool.and_eq_true, isKeywordChar_iff, afterKeyword_iff]
    constructor
    · rintro ⟨hc, k, r, rfl, hk⟩
      refine ⟨c :: k, r, rfl, by simp, ?_⟩
      intro x hx
      rcases List.mem_cons.mp hx with rfl | hx
      · exact hc
      · exact hk x hx
    · rintro ⟨k, r, h, hne, hk⟩
      cases k with
      | nil => exact absurd rfl hne
      | cons d k =>
        simp only [List.cons_append, List.cons.injEq] at h
        obtain ⟨rfl, rfl⟩ := h
        exact ⟨hk _ (by simp), k, r, rfl, fun x hx => hk x (by simp [hx])⟩

theorem checkedInfos_ok {vs : List Str} (h : ∀ v ∈ vs, InfoLine v) : checkedInfos vs = .ok vs := by
  induction vs with
  | nil => rfl
  | cons v vs ih =>
    unfold checkedInfos
    rw [if_pos ((infoLineMatches_iff v).mpr (h v (by simp))), ih fun v hv => h v (by simp [hv])]
    rfl

theorem checkedInfos_panic {vs : List Str} (h : ∃ v ∈ vs, ¬ InfoLine v) : checkedInfos vs = .panic := by
  induction vs with
  | nil => obtain ⟨v, hv, _⟩ := h; cases hv
  | cons v vs ih =>
    unfold checkedInfos
    by_cases hv : infoLineMatches v = true
    · rw [if_pos hv, ih]
      · rfl
      · obtain ⟨x, hx, hn⟩ := h
        rcases List.mem_cons.mp hx with rfl | hx
        · exact absurd ((infoLineMatches_iff _).mp hv) hn
        · exact ⟨x, hx, hn⟩
    · rw [if_neg hv]

/-- **C55, first part.** A run with an extra-info value of the wrong form is stopped before anything else happens; no other value is
refused. -/
theorem C55_rejected (version : Str) (values : Option (List Str)) (noGenerator : Bool) :
    getExtraInfo version values noGenerator = .panic ↔ ∃ v ∈ values.getD [], ¬ InfoLine v := by
  constructor
  · intro h
    apply Classical.byContradiction
    intro hn
    have hall : ∀ v ∈ values.getD [], InfoLine v := by
      intro v hv
      exact Classical.byContradiction fun hc => hn ⟨v, hv, hc⟩
    unfold getExtraInfo at h
    cases values with
    | none => simp at h
    | some vs => simp only [Option.getD_some] at hall; simp [checkedInfos_ok hall] at h
  · intro h
    unfold getExtraInfo
    cases values with
    | none => obtain ⟨v, hv, _⟩ := h; cases hv
    | some vs => rw [Option.getD_some] at h; simp only []; rw [checkedInfos_panic h]; rfl

/-- The INFO lines of a list of values. -/
def infoLines (vs : List Str) : Str := vs.flatMap fun v => str% "INFO " ++ v ++ str% "\n"

/-- Trimming does not cut into the beginning of the code id line. -/
theorem trim_info (s : Str) : ∃ more, trim (str% "INFO CODE_ID " ++ s) = str% "INFO CODE_ID" ++ more := by
  unfold trim trimEnd
  have h1 : trimStart isWhitespace (str% "INFO CODE_ID " ++ s) = str% "INFO CODE_ID " ++ s := by
    unfold trimStart
    rw [List.cons_append, List.dropWhile_cons, if_neg (by decide)]
  rw [h1, List.reverse_append, List.dropWhile_append]
  split
  · exact ⟨[], by decide⟩
  · exact ⟨' ' :: (s.reverse.dropWhile isWhitespace).reverse, by simp⟩

/-- **C55, second part.** Accepted values become INFO lines, in order, followed by the generator line unless disabled.  They
stand right after the MODULE record and the code id (`head`), and nothing else in the symbol file changes. -/
theorem C55_printed (version : Str) (values : Option (List Str)) (noGenerator : Bool)
    (h : ∀ v ∈ values.getD [], InfoLine v) (o : ObjectInfo) (text : Str) (ht : o.display none = .ok text) :
    ∃ extra head rest, getExtraInfo version values noGenerator = .ok extra ∧ text = head ++ rest ∧
      (∃ code, head = str% "MODULE " ++ Reader.osName o.platform ++ str% " " ++ o.cpu ++ str% " " ++ o.debugId ++ str% " " ++ o.fileName ++
          str% "\n" ++ code ∧ (o.codeId = none → code = []) ∧
        ∀ c, o.codeId = some c → ∃ more, code = str% "INFO CODE_ID" ++ more ++ str% "\n") ∧
      o.display (some extra) = .ok (head ++ infoLines (values.getD []) ++
        (if noGenerator then [] else str% "INFO GENERATOR mozilla/dump_syms " ++ version ++ str% "\n") ++ rest) := by
  have hx : getExtraInfo version values noGenerator =
      .ok (if noGenerator then values.getD [] else values.getD [] ++ [str% "GENERATOR mozilla/dump_syms " ++ version]) := by
    unfold getExtraInfo
    cases values with
    | none => rfl
    | some vs => simp only [Option.getD_some] at h ⊢; rw [checkedInfos_ok h]; rfl
  unfold ObjectInfo.display at ht
  cases hs : symbolsText o.symbols with
  | err m => rw [hs] at ht; cases ht
  | panic => rw [hs] at ht; cases ht
  | ok syms =>
    rw [hs] at ht
    simp only [Res.bind_ok, Res.ok.injEq] at ht
    refine ⟨_, o.moduleText ++ o.codeIdText, filesText o.files.getMapping ++ originsText o.inlineOrigins ++ syms ++ o.stack,
      hx, ?_, ⟨o.codeIdText, ?_, ?_, ?_⟩, ?_⟩
    · rw [← ht]; simp [extraText]
    · unfold ObjectInfo.moduleText
      cases o.platform <;> rfl
    · intro hc
      unfold ObjectInfo.codeIdText
      rw [hc]
    · intro c hc
      unfold ObjectInfo.codeIdText
      rw [hc]
      obtain ⟨more, hmore⟩ := trim_info (c ++ str% " " ++ o.peName.getD [])
      exact ⟨more, by rw [← hmore]; simp⟩
    · unfold ObjectInfo.display
      rw [hs]
      simp only [Res.bind_ok, Res.ok.injEq]
      cases noGenerator <;> simp [extraText, infoLines]

/-- **C55, third part, without newlines.** A list of values without newlines gives as many lines as there are values, each being
`INFO` and the value.  Missing: values with newlines (see the witness). -/
theorem C55_one_line_partial (vs : List Str) (h : ∀ v ∈ vs, '\n' ∉ v) :
    Reader.textLines (infoLines vs) = some (vs.map fun v => str% "INFO " ++ v) := by
  have key : infoLines vs = (vs.map fun v => str% "INFO " ++ v).flatMap fun l => l ++ str% "\n" := by
    unfold infoLines
    rw [List.flatMap_map]
  rw [key, Reader.textLines_lines]
  intro l hl
  obtain ⟨v, hv, rfl⟩ := List.mem_map.mp hl
  simp only [List.mem_append, not_or]
  exact ⟨by decide, h v hv⟩

/-- **C55's last clause is false**: this single value is accepted, and it adds a PUBLIC record to the symbol file. -/
theorem C55_newline_witness :
    getExtraInfo (str% "2.3.5") (some [str% "A b\nPUBLIC 0 0 evil"]) true = .ok [str% "A b\nPUBLIC 0 0 evil"] ∧
    Reader.textLines (infoLines [str% "A b\nPUBLIC 0 0 evil"]) = some [str% "INFO A b", str% "PUBLIC 0 0 evil"] := by
  decide

example : getExtraInfo (str% "2.3.5") (some [str% "RELEASECHANNEL nightly", str% "_ "]) false =
    .ok [str% "RELEASECHANNEL nightly", str% "_ ", str% "GENERATOR mozilla/dump_syms 2.3.5"] := by decide
example : getExtraInfo (str% "2.3.5") (some [str% "VENDOR x", str% "Vendor x"]) false = .panic := by decide
example : InfoLine (str% "VENDOR a b") := ⟨str% "VENDOR", str% "a b", rfl, by decide, by decide⟩
example : ¬ InfoLine (str% "VENDOR") := by rw [← infoLineMatches_iff]; decide

/-- **C64, jobs.** `-j` takes a decimal number (a leading `+` is allowed); anything else, or nothing, means the number of
processors. -/
theorem C64_jobs (cpus : Nat) (s : Str) :
    (∀ n, Mapping.Numeral s n → numJobs cpus s = n) ∧ ((∀ n, ¬ Mapping.Numeral s n) → numJobs cpus s = cpus) := by
  unfold numJobs
  constructor
  · intro n h
    rw [Mapping.parseUsize_iff.mpr h]; rfl
  · intro h
    cases hp : Mapping.parseUsize s with
    | none => rfl
    | some n => exact absurd (Mapping.parseUsize_iff.mp hp) (h n)

example : Mapping.Numeral (str% "+12") 12 := ⟨str% "12", .inr rfl, by decide, by decide, by decide, by decide⟩
example : numJobs 8 (str% "3") = 3 ∧ numJobs 8 [] = 8 ∧ numJobs 8 (str% "-1") = 8 ∧ numJobs 8 (str% "0") = 0 := by decide

/-- **C64, destinations.** With neither `--output` nor `--store` the symbols go to standard output, as they do with `--output -`;
otherwise they go to the file, to the store, or to both, as asked. -/
theorem C64_destinations (o : ObjectInfo) (output store : Option Str) (fo : Output.FileOutput) :
    Output.Requested (Output.Out.ofOptions output store) o fo ↔
      (output = none ∧ store = none ∧ fo = .stdout) ∨ (output = some ['-'] ∧ fo = .stdout) ∨
      (∃ f, output = some f ∧ f ≠ ['-'] ∧ fo = .path f) ∨
      ∃ d p, store = some d ∧ d ≠ [] ∧ InStore d o.fileName o.debugId p ∧ fo = .path p := by
  have hof : ∀ f, Output.FileOutput.ofStr f = fo ↔ (f = ['-'] ∧ fo = .stdout) ∨ (f ≠ ['-'] ∧ fo = .path f) := by
    intro f
    unfold Output.FileOutput.ofStr
    by_cases hf : f = ['-']
    · simp [hf, eq_comm]
    · simp [hf, eq_comm]
  constructor
  · intro h
    cases h with
    | file h =>
      cases output with
      | none =>
        cases store with
        | none =>
          rcases h with h | ⟨d, h⟩ <;> cases h
          exact .inl ⟨rfl, rfl, rfl⟩
        | some s => rcases h with h | ⟨d, h⟩ <;> cases h
      | some f =>
        have : Output.FileOutput.ofStr f = fo := by
          cases store with
          | none => rcases h with h | ⟨d, h⟩ <;> cases h; rfl
          | some s => rcases h with h | ⟨d, h⟩ <;> cases h; rfl
        rcases (hof f).mp this with ⟨rfl, h'⟩ | ⟨h1, h2⟩
        · exact .inr (.inl ⟨rfl, h'⟩)
        · exact .inr (.inr (.inl ⟨f, rfl, h1, h2⟩))
    | store h hd hp =>
      rename_i dir p
      have : store = some dir := by
        cases output <;> cases store <;> rcases h with h | ⟨d, h⟩ <;> cases h <;> rfl
      exact .inr (.inr (.inr ⟨dir, p, this, hd, hp, rfl⟩))
  · rintro (⟨rfl, rfl, rfl⟩ | ⟨rfl, rfl⟩ | ⟨f, rfl, hf, rfl⟩ | ⟨d, p, rfl, hd, hp, rfl⟩)
    · exact .file (.inl rfl)
    · cases store with
      | none => exact .file (.inl rfl)
      | some s => exact .file (.inr ⟨s, rfl⟩)
    · have hfo := (hof f).mpr (.inr ⟨hf, rfl⟩)
      cases store with
      | none => exact .file (.inl (by simp only [Output.Out.ofOptions, hfo]))
      | some s => exact .file (.inr ⟨s, by simp only [Output.Out.ofOptions, hfo]⟩)
    · cases output with
      | none => exact .store (.inl rfl) hd hp
      | some f => exact .store (.inr ⟨_, rfl⟩) hd hp

end Main
end DumpSyms
