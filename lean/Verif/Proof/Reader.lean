import Verif.Spec.Reader
import Verif.Proof.MergeSyms
import Verif.Proof.Line
/-!
# Reading back what was printed
-/
namespace DumpSyms
namespace Reader
open ObjectInfo

theorem dropPre_append (p s : Str) : dropPre p (p ++ s) = some s := by
  induction p with
  | nil => cases s <;> rfl
  | cons c p ih => simp [dropPre, ih]

theorem readField_append {w s : Str} (h : ' ' ∉ w) : readField (w ++ ' ' :: s) = some (w, s) := by
  induction w with
  | nil => simp [readField]
  | cons c w ih =>
    have hc : c ≠ ' ' := fun e => h (by simp [e])
    simp only [List.cons_append, readField, if_neg hc, ih (fun h' => h (by simp [h']))]
    rfl

theorem readField_none {w : Str} (h : ' ' ∉ w) : readField w = none := by
  induction w with
  | nil => rfl
  | cons c w ih =>
    have hc : c ≠ ' ' := fun e => h (by simp [e])
    simp only [readField, if_neg hc, ih (fun h' => h (by simp [h']))]
    rfl

theorem splitOn_none {p : Char → Bool} {w : Str} (h : ∀ c ∈ w, p c = false) : splitOn p w = [w] := by
  induction w with
  | nil => rfl
  | cons c w ih =>
    unfold splitOn
    rw [ih (fun c hc => h c (by simp [hc])), h c (by simp)]
    rfl

theorem splitOn_append {p : Char → Bool} {w s : Str} {d : Char} (h : ∀ c ∈ w, p c = false) (hd : p d = true) :
    splitOn p (w ++ d :: s) = w :: splitOn p s := by
  induction w with
  | nil => simp [splitOn, hd]
  | cons c w ih =>
    rw [List.cons_append]
    rw [splitOn.eq_def]; simp only
    rw [ih (fun c hc => h c (by simp [hc])), h c (by simp)]
    rfl

theorem words_append {w s : Str} (h : ' ' ∉ w) : words (w ++ ' ' :: s) = w :: words s :=
  splitOn_append (fun c hc => by simpa using fun e : c = ' ' => h (e ▸ hc)) (by simp)

theorem words_one {w : Str} (h : ' ' ∉ w) : words w = [w] :=
  splitOn_none (fun c hc => by simpa using fun e : c = ' ' => h (e ▸ hc))

theorem splitOn_lines (ls : List Str) (h : ∀ l ∈ ls, '\n' ∉ l) :
    splitOn (fun c => decide (c = '\n')) (ls.flatMap fun l => l ++ str% "\n") = ls ++ [[]] := by
  induction ls with
  | nil => rfl
  | cons l ls ih =>
    rw [List.flatMap_cons, List.append_assoc, List.cons_append, List.nil_append]
    rw [splitOn_append (fun c hc => by simpa using fun e : c = '\n' => h l (by simp) (e ▸ hc)) (by simp),
      ih (fun l hl => h l (by simp [hl]))]
    rfl

theorem textLines_lines (ls : List Str) (h : ∀ l ∈ ls, '\n' ∉ l) :
    textLines (ls.flatMap fun l => l ++ str% "\n") = some ls := by
  unfold textLines
  rw [splitOn_lines ls h]
  simp

theorem readRecs_append (l1 l2 : List Str) :
    readRecs (l1 ++ l2) = (readRecs l1).bind fun a => (readRecs l2).map fun b => a ++ b := by
  induction l1 with
  | nil => simp [readRecs]
  | cons l l1 ih =>
    simp only [List.cons_append, readRecs, ih]
    cases readRec l with
    | none => rfl
    | some r =>
      cases readRecs l1 with
      | none => rfl
      | some a => cases readRecs l2 <;> rfl

theorem build_append (l1 l2 : List Rec) (b : Building) : build (l1 ++ l2) b = (build l2 b).bind (build l1) := by
  induction l1 with
  | nil => cases h : build l2 b <;> simp [build, h]
  | cons r l1 ih =>
    simp only [List.cons_append, build, ih]
    cases build l2 b <;> rfl

theorem space_dec (n : Nat) : ' ' ∉ dec n := not_mem_dec (by decide)
theorem space_hex (n : Nat) : ' ' ∉ hex n := not_mem_hex (by decide)
theorem nl_dec (n : Nat) : '\n' ∉ dec n := not_mem_dec (by decide)
theorem nl_hex (n : Nat) : '\n' ∉ hex n := not_mem_hex (by decide)

/-! ## Each record -/

theorem readMultiple_hex (m : Bool) (n : Nat) (s : Str) :
    readMultiple ((if m then str% "m " else []) ++ (hex n ++ s)) = (m, hex n ++ s) := by
  unfold readMultiple
  cases m with
  | true => simp only [if_true]; rw [dropPre_append]
  | false =>
    simp only [Bool.false_eq_true, if_false, List.nil_append]
    cases hx : hex n with
    | nil => exact absurd hx (hex_ne_nil n)
    | cons c cs =>
      have hc : 'm' ≠ c := by
        rintro rfl
        exact (not_mem_hex (n := n) (c := 'm') (by decide)) (by simp [hx])
      simp [dropPre, hc]

theorem readRec_module {os arch id name : Str} (h1 : ' ' ∉ os) (h2 : ' ' ∉ arch) (h3 : ' ' ∉ id) :
    readRec (str% "MODULE " ++ (os ++ ' ' :: (arch ++ ' ' :: (id ++ ' ' :: name)))) = some (.module os arch id name) := by
  unfold readRec
  rw [dropPre_append]
  simp only [readModule, readField_append h1, readField_append h2, readField_append h3, Option.bind_eq_bind, Option.bind_some]

theorem readRec_info (t : Str) : readRec (str% "INFO " ++ t) = some (.info t) := by
  simp [readRec, dropPre]

theorem readRec_stack (t : Str) : readRec (str% "STACK " ++ t) = some (.stack t) := by
  simp [readRec, dropPre]

theorem readNumbered_dec (n : Nat) (name : Str) : readNumbered (dec n ++ ' ' :: name) = some (n, name) := by
  simp [readNumbered, readField_append (space_dec n), readNat_dec]

theorem readRec_file (n : Nat) (name : Str) : readRec (str% "FILE " ++ (dec n ++ ' ' :: name)) = some (.file n name) := by
  unfold readRec
  simp [dropPre, readNumbered_dec]

theorem readRec_origin (n : Nat) (name : Str) :
    readRec (str% "INLINE_ORIGIN " ++ (dec n ++ ' ' :: name)) = some (.origin n name) := by
  unfold readRec
  simp [dropPre, readNumbered_dec]

theorem readRec_func (m : Bool) (a n p : Nat) (name : Str) :
    readRec (str% "FUNC " ++ ((if m then str% "m " else []) ++ (hex a ++ ' ' :: (hex n ++ ' ' :: (hex p ++ ' ' :: name))))) =
      some (.func m a n p name) := by
  have : readRec (str% "FUNC " ++ ((if m then str% "m " else []) ++ (hex a ++ ' ' :: (hex n ++ ' ' :: (hex p ++ ' ' :: name))))) =
      readFunc ((if m then str% "m " else []) ++ (hex a ++ ' ' :: (hex n ++ ' ' :: (hex p ++ ' ' :: name)))) := by
    simp [readRec, dropPre]
  rw [this]
  unfold readFunc
  rw [readMultiple_hex]
  simp [readField_append (space_hex _), readNat_hex]

theorem readRec_pub (m : Bool) (a p : Nat) (name : Str) :
    readRec (str% "PUBLIC " ++ ((if m then str% "m " else []) ++ (hex a ++ ' ' :: (hex p ++ ' ' :: name)))) =
      some (.pub m a p name) := by
  have : readRec (str% "PUBLIC " ++ ((if m then str% "m " else []) ++ (hex a ++ ' ' :: (hex p ++ ' ' :: name)))) =
      readPublic ((if m then str% "m " else []) ++ (hex a ++ ' ' :: (hex p ++ ' ' :: name))) := by
    simp [readRec, dropPre]
  rw [this]
  unfold readPublic
  rw [readMultiple_hex]
  simp [readField_append (space_hex _), readNat_hex]

theorem words_ranges (w : Str) (hw : ' ' ∉ w) (rs : List IRange) :
    words (w ++ rs.flatMap fun r => str% " " ++ hex r.rva ++ str% " " ++ hex r.len) =
      w :: rs.flatMap fun r => [hex r.rva, hex r.len] := by
  induction rs generalizing w with
  | nil => simp [words_one hw]
  | cons r rs ih =>
    simp only [List.flatMap_cons, List.append_assoc, List.cons_append, List.nil_append]
    rw [words_append hw, words_append (space_hex _)]
    have := ih (hex r.len) (space_hex _)
    simp only [List.append_assoc, List.cons_append, List.nil_append] at this
    rw [this]

theorem readRanges_hex (rs : List IRange) : readRanges (rs.flatMap fun r => [hex r.rva, hex r.len]) = some rs := by
  induction rs with
  | nil => rfl
  | cons r rs ih => simp [readRanges, readNat_hex, ih]

theorem readRec_inline (s : InlineSite) (rs : List IRange) (h : rs ≠ []) :
    readRec (str% "INLINE " ++ (dec s.depth ++ ' ' :: (dec s.callLine ++ ' ' :: (dec s.callFile ++ ' ' :: (dec s.originId ++
      rs.flatMap fun r => str% " " ++ hex r.rva ++ str% " " ++ hex r.len))))) = some (.inline s rs) := by
  generalize hx : (dec s.depth ++ ' ' :: (dec s.callLine ++ ' ' :: (dec s.callFile ++ ' ' :: (dec s.originId ++
      rs.flatMap fun r => str% " " ++ hex r.rva ++ str% " " ++ hex r.len)))) = x
  have h1 : readRec (str% "INLINE " ++ x) = readInline x := by simp [readRec, dropPre]
  have h2 : words x = [dec s.depth, dec s.callLine, dec s.callFile] ++ (dec s.originId :: rs.flatMap fun r => [hex r.rva, hex r.len]) := by
    rw [← hx, words_append (space_dec _), words_append (space_dec _), words_append (space_dec _),
      words_ranges _ (space_dec _)]
    rfl
  rw [h1]
  unfold readInline
  rw [h2]
  simp [readNat_dec, readRanges_hex, h]

theorem readRec_line (l : Line) :
    readRec (hex l.rva ++ ' ' :: (hex l.len ++ ' ' :: (dec l.num ++ ' ' :: dec l.fileId))) = some (.line l) := by
  generalize hx : (hex l.rva ++ ' ' :: (hex l.len ++ ' ' :: (dec l.num ++ ' ' :: dec l.fileId))) = x
  have h1 : readRec x = readLine x := by
    have hno : ∀ p ps, digitVal p = none → dropPre (p :: ps) x = none := by
      intro p ps hp
      rw [← hx]
      cases hh : hex l.rva with
      | nil => exact absurd hh (hex_ne_nil _)
      | cons c cs =>
        have : p ≠ c := by
          rintro rfl
          exact not_mem_hex (n := l.rva) hp (by simp [hh])
        simp [dropPre, this]
    unfold readRec
    rw [hno 'M' _ (by decide), hno 'I' _ (by decide), hno 'F' _ (by decide), hno 'I' _ (by decide), hno 'I' _ (by decide),
      hno 'F' _ (by decide), hno 'P' _ (by decide), hno 'S' _ (by decide)]
  have h2 : words x = [hex l.rva, hex l.len, dec l.num, dec l.fileId] := by
    rw [← hx, words_append (space_hex _), words_append (space_hex _), words_append (space_dec _), words_one (space_dec _)]
  rw [h1]
  unfold readLine
  rw [h2]
  simp [readNat_dec, readNat_hex]

/-! ## Blocks of lines -/

/-- The text consists of lines that read as the records `rs`. -/
def Block (text : Str) (rs : List Rec) : Prop :=
  ∃ ls : List Str, text = ls.flatMap (fun l => l ++ str% "\n") ∧ (∀ l ∈ ls, '\n' ∉ l) ∧ readRecs ls = some rs

theorem Block.nil : Block [] [] := ⟨[], rfl, by simp, rfl⟩

theorem Block.one {l : Str} {r : Rec} (h1 : '\n' ∉ l) (h2 : readRec l = some r) : Block (l ++ str% "\n") [r] :=
  ⟨[l], by simp, by simpa using h1, by simp [readRecs, h2]⟩

theorem Block.append {a b : Str} {ra rb : List Rec} (h1 : Block a ra) (h2 : Block b rb) : Block (a ++ b) (ra ++ rb) := by
  obtain ⟨la, rfl, a2, a3⟩ := h1
  obtain ⟨lb, rfl, b2, b3⟩ := h2
  refine ⟨la ++ lb, by simp, ?_, by rw [readRecs_append, a3, b3]; rfl⟩
  intro l hl
  rcases List.mem_append.mp hl with h | h
  · exact a2 l h
  · exact b2 l h

theorem Block.flatMap {α : Type} {l : List α} {f : α → Str} {g : α → List Rec} (h : ∀ a ∈ l, Block (f a) (g a)) :
    Block (l.flatMap f) (l.flatMap g) := by
  induction l with
  | nil => exact Block.nil
  | cons a l ih =>
    rw [List.flatMap_cons, List.flatMap_cons]
    exact (h a (by simp)).append (ih fun a ha => h a (by simp [ha]))

theorem not_mem_cons {c d : Char} {s : Str} (h1 : c ≠ d) (h2 : c ∉ s) : c ∉ d :: s := by simp [h1, h2]

theorem block_inline (e : InlineSite × List IRange) (h : e.2 ≠ []) :
    Block (Lines.printInline e.1 e.2) [.inline e.1 e.2] := by
  have hb := Block.one (l := str% "INLINE " ++ (dec e.1.depth ++ ' ' :: (dec e.1.callLine ++ ' ' :: (dec e.1.callFile ++ ' ' ::
      (dec e.1.originId ++ e.2.flatMap fun r => str% " " ++ hex r.rva ++ str% " " ++ hex r.len))))) (by
    simp only [List.mem_append, List.mem_cons, List.mem_flatMap, not_or, List.not_mem_nil, not_false_eq_true, and_true,
      not_exists, not_and]
    simp [nl_dec, nl_hex]) (readRec_inline e.1 e.2 h)
  have : Lines.printInline e.1 e.2 = str% "INLINE " ++ (dec e.1.depth ++ ' ' :: (dec e.1.callLine ++ ' ' :: (dec e.1.callFile ++
      ' ' :: (dec e.1.originId ++ e.2.flatMap fun r => str% " " ++ hex r.rva ++ str% " " ++ hex r.len)))) ++ str% "\n" := by
    simp [Lines.printInline]
  rw [this]; exact hb

theorem block_line (l : Line) : Block (Lines.printLine l) [.line l] := by
  have hb := Block.one (l := hex l.rva ++ ' ' :: (hex l.len ++ ' ' :: (dec l.num ++ ' ' :: dec l.fileId))) (by
    simp [nl_dec, nl_hex]) (readRec_line l)
  have : Lines.printLine l = hex l.rva ++ ' ' :: (hex l.len ++ ' ' :: (dec l.num ++ ' ' :: dec l.fileId)) ++ str% "\n" := by
    simp [Lines.printLine]
  rw [this]; exact hb

/-- The records of a symbol. -/
def symRecs (s : Symbol) : List Rec :=
  if s.isPublic then [.pub s.isMultiple s.rva s.parameterSize s.name]
  else .func s.isMultiple s.rva s.len s.parameterSize s.name ::
    ((isort Lines.inlineKeyLe s.source.inlines).map (fun e => Rec.inline e.1 e.2) ++ s.source.lines.map Rec.line)

theorem block_symbol {s : Symbol} (h1 : '\n' ∉ s.name) (h2 : ∀ e ∈ s.source.inlines, e.2 ≠ []) :
    ∃ text, s.display = .ok text ∧ Block text (symRecs s) := by
  unfold Symbol.display symRecs
  have hm : '\n' ∉ s.mFlag := by unfold Symbol.mFlag; split <;> decide
  by_cases hp : s.isPublic = true
  · rw [if_pos hp, if_pos hp]
    refine ⟨_, rfl, ?_⟩
    have hb := Block.one (l := str% "PUBLIC " ++ (s.mFlag ++ (hex s.rva ++ ' ' :: (hex s.parameterSize ++ ' ' :: s.name)))) (by
      simp [nl_hex, hm, h1]) (readRec_pub s.isMultiple s.rva s.parameterSize s.name)
    simpa using hb
  · rw [if_neg hp, if_neg hp]
    have hd : s.source.display = .ok (((isort Lines.inlineKeyLe s.source.inlines).flatMap fun e => Lines.printInline e.1 e.2) ++
        s.source.lines.flatMap Lines.printLine) := by
      unfold Lines.display
      rw [if_neg]
      simp only [Bool.and_eq_true, List.any_eq_true, not_exists, not_and]
      intro _ e he
      simpa using h2 e he
    rw [hd]
    refine ⟨_, rfl, ?_⟩
    have hb := Block.one (l := str% "FUNC " ++ (s.mFlag ++ (hex s.rva ++ ' ' :: (hex s.len ++ ' ' :: (hex s.parameterSize ++ ' ' ::
        s.name))))) (by simp [nl_hex, hm, h1]) (readRec_func s.isMultiple s.rva s.len s.parameterSize s.name)
    have hi : Block ((isort Lines.inlineKeyLe s.source.inlines).flatMap fun e => Lines.printInline e.1 e.2)
        ((isort Lines.inlineKeyLe s.source.inlines).map fun e => Rec.inline e.1 e.2) := by
      rw [List.map_eq_flatMap]
      exact Block.flatMap fun e he => block_inline e (h2 e (mem_isort.mp he))
    have hl : Block (s.source.lines.flatMap Lines.printLine) (s.source.lines.map Rec.line) := by
      rw [List.map_eq_flatMap]
      exact Block.flatMap fun l _ => block_line l
    have := hb.append (hi.append hl)
    simpa [List.append_assoc] using this

theorem block_symbols (m : List (Nat × Symbol)) (h1 : ∀ e ∈ m, '\n' ∉ e.2.name)
    (h2 : ∀ e ∈ m, ∀ i ∈ e.2.source.inlines, i.2 ≠ []) :
    ∃ text, symbolsText m = .ok text ∧ Block text (m.flatMap fun e => symRecs e.2) := by
  induction m with
  | nil => exact ⟨[], rfl, Block.nil⟩
  | cons e m ih =>
    obtain ⟨t1, a1, a2⟩ := block_symbol (h1 e (by simp)) (h2 e (by simp))
    obtain ⟨t2, b1, b2⟩ := ih (fun e he => h1 e (by simp [he])) (fun e he => h2 e (by simp [he]))
    refine ⟨t1 ++ t2, ?_, a2.append b2⟩
    obtain ⟨k, s⟩ := e
    unfold symbolsText
    rw [a1, b1]
    rfl

theorem block_files (fs : List Str) (h : ∀ f ∈ fs, '\n' ∉ f) (n : Nat) :
    Block ((enumFrom n fs).flatMap fun e => str% "FILE " ++ dec e.1 ++ str% " " ++ e.2 ++ str% "\n")
      ((enumFrom n fs).map fun e => Rec.file e.1 e.2) := by
  induction fs generalizing n with
  | nil => exact Block.nil
  | cons f fs ih =>
    simp only [enumFrom, List.flatMap_cons, List.map_cons]
    have hb := Block.one (l := str% "FILE " ++ (dec n ++ ' ' :: f)) (by simp [nl_dec, h f (by simp)]) (readRec_file n f)
    have := hb.append (ih (fun f hf => h f (by simp [hf])) (n + 1))
    simpa [List.append_assoc] using this

theorem block_origins (fs : List Str) (h : ∀ f ∈ fs, '\n' ∉ f) (n : Nat) :
    Block ((enumFrom n fs).flatMap fun e => str% "INLINE_ORIGIN " ++ dec e.1 ++ str% " " ++ originText e.2 ++ str% "\n")
      ((enumFrom n fs).map fun e => Rec.origin e.1 (originText e.2)) := by
  induction fs generalizing n with
  | nil => exact Block.nil
  | cons f fs ih =>
    simp only [enumFrom, List.flatMap_cons, List.map_cons]
    have hf : '\n' ∉ originText f := by
      unfold originText
      split
      · decide
      · exact h f (by simp)
    have hb := Block.one (l := str% "INLINE_ORIGIN " ++ (dec n ++ ' ' :: originText f)) (by simp [nl_dec, hf])
      (readRec_origin n (originText f))
    have := hb.append (ih (fun f hf => h f (by simp [hf])) (n + 1))
    simpa [List.append_assoc] using this

theorem block_infos (ls : List Str) (h : ∀ l ∈ ls, '\n' ∉ l) :
    Block (ls.flatMap fun l => str% "INFO " ++ l ++ str% "\n") (ls.map Rec.info) := by
  rw [List.map_eq_flatMap]
  refine Block.flatMap fun l hl => ?_
  exact Block.one (by simp [h l hl]) (readRec_info l)

theorem block_stack (ls : List Str) (h : ∀ l ∈ ls, '\n' ∉ l) :
    Block (ls.flatMap fun l => str% "STACK " ++ l ++ str% "\n") (ls.map Rec.stack) := by
  rw [List.map_eq_flatMap]
  refine Block.flatMap fun l hl => ?_
  exact Block.one (by simp [h l hl]) (readRec_stack l)

/-! ## Putting the records together -/

/-- A file with nothing in it. -/
def emptyFile : SymFile := ⟨[], [], [], [], [], []⟩

/-- Nothing waits. -/
def done (f : SymFile) : Building := ⟨f, [], []⟩

theorem build_stack (ls : List Str) (f : SymFile) :
    build (ls.map Rec.stack) (done f) = some (done { f with stack := ls ++ f.stack }) := by
  induction ls with
  | nil => rfl
  | cons l ls ih => simp only [List.map_cons, build, ih, Option.bind_some]; simp [addRec, done, Building.settled]

theorem build_lines (ls : List Line) (f : SymFile) :
    build (ls.map Rec.line) (done f) = some ⟨f, [], ls⟩ := by
  induction ls with
  | nil => rfl
  | cons l ls ih => simp [build, ih, addRec]

theorem build_inlines (is : List (InlineSite × List IRange)) (ls : List Line) (f : SymFile) :
    build (is.map fun e => Rec.inline e.1 e.2) ⟨f, [], ls⟩ = some ⟨f, is, ls⟩ := by
  induction is with
  | nil => rfl
  | cons i is ih => simp [build, ih, addRec]

/-- The symbol as read back. -/
def symOf (s : Symbol) : RSym :=
  if s.isPublic then ⟨true, s.isMultiple, s.rva, 0, s.parameterSize, s.name, [], []⟩
  else ⟨false, s.isMultiple, s.rva, s.len, s.parameterSize, s.name, isort Lines.inlineKeyLe s.source.inlines, s.source.lines⟩

theorem build_symbol (s : Symbol) (f : SymFile) :
    build (symRecs s) (done f) = some (done { f with symbols := symOf s :: f.symbols }) := by
  unfold symRecs symOf
  by_cases hp : s.isPublic = true
  · rw [if_pos hp, if_pos hp]; rfl
  · rw [if_neg hp, if_neg hp]
    simp only [build, build_append, build_lines, build_inlines, Option.bind_some, addRec]
    rfl

theorem build_symbols (m : List (Nat × Symbol)) (f : SymFile) :
    build (m.flatMap fun e => symRecs e.2) (done f) =
      some (done { f with symbols := m.map (fun e => symOf e.2) ++ f.symbols }) := by
  induction m with
  | nil => rfl
  | cons e m ih =>
    rw [List.flatMap_cons, build_append, ih, Option.bind_some, build_symbol]
    rfl

theorem build_origins (os : List (Nat × Str)) (f : SymFile) :
    build (os.map fun e => Rec.origin e.1 (originText e.2)) (done f) =
      some (done { f with origins := os.map (fun e => (e.1, originText e.2)) ++ f.origins }) := by
  induction os with
  | nil => rfl
  | cons e os ih => simp only [List.map_cons, build, ih, Option.bind_some]; simp [addRec, done, Building.settled]

theorem build_files (os : List (Nat × Str)) (f : SymFile) :
    build (os.map fun e => Rec.file e.1 e.2) (done f) = some (done { f with files := os ++ f.files }) := by
  induction os with
  | nil => rfl
  | cons e os ih => simp only [List.map_cons, build, ih, Option.bind_some]; simp [addRec, done, Building.settled]

theorem build_infos (ls : List Str) (f : SymFile) :
    build (ls.map Rec.info) (done f) = some (done { f with infos := ls ++ f.infos }) := by
  induction ls with
  | nil => rfl
  | cons l ls ih => simp only [List.map_cons, build, ih, Option.bind_some]; simp [addRec, done, Building.settled]

/-! ## The header -/

theorem trim_id {c d : Char} {s : Str} (h1 : isWhitespace c = false) (h2 : s.getLast? = some d) (h3 : isWhitespace d = false)
    (h4 : s.head? = some c) : trim s = s := by
  unfold trim trimEnd trimStart
  have e1 : s.dropWhile isWhitespace = s := by
    cases s with
    | nil => rfl
    | cons x s => simp at h4; subst h4; simp [h1]
  rw [e1]
  have : s.reverse.dropWhile isWhitespace = s.reverse := by
    have hh : s.reverse.head? = some d := by rw [List.head?_reverse]; exact h2
    cases hs : s.reverse with
    | nil => rfl
    | cons x t => rw [hs] at hh; simp at hh; subst hh; simp [h3]
  rw [this, List.reverse_reverse]

theorem trim_space {c d : Char} {s : Str} (h1 : isWhitespace c = false) (h2 : s.getLast? = some d) (h3 : isWhitespace d = false)
    (h4 : s.head? = some c) : trim (s ++ str% " ") = s := by
  have h := trim_id h1 h2 h3 h4
  unfold trim trimEnd trimStart at *
  have e1 : (s ++ str% " ").dropWhile isWhitespace = s ++ str% " " := by
    cases s with
    | nil => cases h4
    | cons x s => simp at h4; subst h4; simp [h1]
  have e2 : s.dropWhile isWhitespace = s := by
    cases s with
    | nil => rfl
    | cons x s => simp at h4; subst h4; simp [h1]
  rw [e2] at h
  rw [e1, List.reverse_append]
  have : (List.reverse (str% " ") ++ s.reverse).dropWhile isWhitespace = s.reverse.dropWhile isWhitespace := by
    simp [show isWhitespace ' ' = true by decide]
  rw [this]; exact h

/-- The leading INFO record. -/
def codeInfo (o : ObjectInfo) : List Str :=
  match o.codeId with
  | none => []
  | some c => [str% "CODE_ID " ++ c ++ (match o.peName with | none => [] | some p => ' ' :: p)]

theorem no_nl_of_ws {c : Str} (h : ∀ x ∈ c, isWhitespace x = false) : '\n' ∉ c := by
  intro hc
  have := h _ hc
  exact absurd this (by decide)

theorem no_sp_of_ws {c : Str} (h : ∀ x ∈ c, isWhitespace x = false) : ' ' ∉ c := by
  intro hc
  have := h _ hc
  exact absurd this (by decide)

theorem codeInfo_spec {o : ObjectInfo} {extra : List Str} (h : o.Readable extra) :
    o.codeIdText = (codeInfo o).flatMap (fun l => str% "INFO " ++ l ++ str% "\n") ∧ (∀ l ∈ codeInfo o, '\n' ∉ l) ∧
    (∀ f : SymFile, f.infos = codeInfo o ++ extra → f.codeId = o.codeId.map (fun c => (c, o.peName)) ∧ f.extra = extra) := by
  cases hc : o.codeId with
  | none =>
    refine ⟨by simp [codeIdText, codeInfo, hc], by simp [codeInfo, hc], ?_⟩
    intro f hf
    have hnone : f.codeId = none := by
      unfold SymFile.codeId
      rw [hf]
      simp only [codeInfo, hc, List.nil_append]
      cases he : extra with
      | nil => rfl
      | cons l ls =>
        simp only [List.head?_cons, Option.bind_eq_bind, Option.bind_some]
        have hx := h.extraCode hc l (by rw [he]; rfl)
        cases hd : dropPre (str% "CODE_ID ") l with
        | none => rfl
        | some r =>
          exfalso
          apply hx
          have key : ∀ (p s r : Str), dropPre p s = some r → p <+: s := by
            intro p
            induction p with
            | nil => intro s r _; exact List.nil_prefix
            | cons a p ih =>
              intro s r hr
              cases s with
              | nil => cases hr
              | cons b s =>
                unfold dropPre at hr
                split at hr
                · rename_i hab; subst hab; exact (List.cons_prefix_cons).mpr ⟨rfl, ih _ _ hr⟩
                · cases hr
          exact key _ _ _ hd
    refine ⟨by rw [hnone]; rfl, ?_⟩
    unfold SymFile.extra
    rw [hnone, hf]
    simp [codeInfo, hc]
  | some c =>
    obtain ⟨c1, c2⟩ := h.codeId c hc
    obtain ⟨d, hd⟩ : ∃ d, c.getLast? = some d := by
      cases hx : c.getLast? with
      | none => rw [List.getLast?_eq_none_iff] at hx; exact absurd hx c1
      | some d => exact ⟨d, rfl⟩
    have hdw : isWhitespace d = false := c2 d (List.mem_of_getLast? hd)
    cases hp : o.peName with
    | none =>
      refine ⟨?_, ?_, ?_⟩
      · simp only [codeIdText, codeInfo, hc, hp, Option.getD_none, List.append_nil, List.flatMap_cons, List.flatMap_nil]
        have := trim_space (s := str% "INFO CODE_ID " ++ c) (c := 'I') (d := d) (by decide) (by
          rw [List.getLast?_append, hd]; rfl) hdw rfl
        rw [this]
        simp
      · simp [codeInfo, hc, hp, no_nl_of_ws c2]
      · intro f hf
        have hid : f.codeId = some (c, none) := by
          unfold SymFile.codeId
          rw [hf]
          simp only [codeInfo, hc, hp, List.append_nil, List.cons_append, List.head?_cons, Option.bind_eq_bind, Option.bind_some,
            List.nil_append]
          rw [show (['C', 'O', 'D', 'E', '_', 'I', 'D', ' ']) = str% "CODE_ID " from rfl] at *
          have : dropPre (str% "CODE_ID ") ('C' :: 'O' :: 'D' :: 'E' :: '_' :: 'I' :: 'D' :: ' ' :: c) = some c :=
            dropPre_append (str% "CODE_ID ") c
          rw [this]
          simp [readField_none (no_sp_of_ws c2)]
        refine ⟨by rw [hid]; rfl, ?_⟩
        unfold SymFile.extra
        rw [hid, hf]
        simp [codeInfo, hc]
    | some p =>
      obtain ⟨p1, x, p2, p3⟩ := h.peName p hp
      refine ⟨?_, ?_, ?_⟩
      · simp only [codeIdText, codeInfo, hc, hp, Option.getD_some, List.flatMap_cons, List.flatMap_nil, List.append_nil]
        have := trim_id (s := str% "INFO CODE_ID " ++ c ++ str% " " ++ p) (c := 'I') (d := x) (by decide) (by
          rw [List.getLast?_append, p2]; rfl) p3 rfl
        rw [this]
        simp
      · simp [codeInfo, hc, hp, no_nl_of_ws c2, p1]
      · intro f hf
        have hid : f.codeId = some (c, some p) := by
          unfold SymFile.codeId
          rw [hf]
          simp only [codeInfo, hc, hp, List.cons_append, List.head?_cons, Option.bind_eq_bind, Option.bind_some,
            List.nil_append]
          have : dropPre (str% "CODE_ID ") ('C' :: 'O' :: 'D' :: 'E' :: '_' :: 'I' :: 'D' :: ' ' :: (c ++ ' ' :: p)) = some (c ++ ' ' :: p) :=
            dropPre_append (str% "CODE_ID ") _
          rw [this]
          simp [readField_append (no_sp_of_ws c2)]
        refine ⟨by rw [hid]; rfl, ?_⟩
        unfold SymFile.extra
        rw [hid, hf]
        simp [codeInfo, hc]

/-- Everything about reading a printed object back. -/
theorem read_display {o : ObjectInfo} {extra : Option (List Str)} (h : o.Readable (extra.getD []))
    (hi : ∀ e ∈ o.symbols, ∀ i ∈ e.2.source.inlines, i.2 ≠ []) :
    ∃ text f, o.display extra = .ok text ∧ readSymFile text = some f ∧
      f.modules = [(o.platform.display, o.cpu, o.debugId, o.fileName)] ∧
      f.codeId = o.codeId.map (fun c => (c, o.peName)) ∧ f.extra = extra.getD [] ∧
      f.files = enumFrom 0 o.files.getMapping ∧
      f.origins = (enumFrom 0 o.inlineOrigins).map (fun e => (e.1, originText e.2)) ∧
      f.symbols = o.symbols.map (fun e => symOf e.2) ∧
      o.stack = f.stack.flatMap (fun l => str% "STACK " ++ l ++ str% "\n") := by
  obtain ⟨ls, hs1, hs2⟩ := h.stack
  obtain ⟨t, t1, t2⟩ := block_symbols o.symbols h.names hi
  obtain ⟨c1, c2, c3⟩ := codeInfo_spec h
  have hpl : ' ' ∉ o.platform.display ∧ '\n' ∉ o.platform.display := by cases o.platform <;> decide
  have bm : Block o.moduleText [.module o.platform.display o.cpu o.debugId o.fileName] := by
    have hb := Block.one (l := str% "MODULE " ++ (o.platform.display ++ ' ' :: (o.cpu ++ ' ' :: (o.debugId ++ ' ' :: o.fileName)))) (by
      simp [hpl.2, h.cpu.2, h.debugId.2, h.fileName]) (readRec_module hpl.1 h.cpu.1 h.debugId.1)
    simpa [moduleText] using hb
  have bi : Block (o.codeIdText ++ extraText extra) ((codeInfo o ++ extra.getD []).map Rec.info) := by
    have hb := block_infos (codeInfo o ++ extra.getD []) (by
      intro l hl
      rcases List.mem_append.mp hl with hl | hl
      · exact c2 l hl
      · exact h.extraLines l hl)
    rw [List.flatMap_append] at hb
    rw [c1]; exact hb
  have hall := bm.append (bi.append ((block_files _ h.files 0).append ((block_origins _ h.origins 0).append
    (t2.append (block_stack ls hs2)))))
  refine ⟨o.moduleText ++ o.codeIdText ++ extraText extra ++ filesText o.files.getMapping ++
    originsText o.inlineOrigins ++ t ++ o.stack, ⟨[(o.platform.display, o.cpu, o.debugId, o.fileName)], codeInfo o ++ extra.getD [], enumFrom 0 o.files.getMapping,
    (enumFrom 0 o.inlineOrigins).map (fun e => (e.1, originText e.2)), o.symbols.map (fun e => symOf e.2), ls⟩, ?_, ?_, rfl,
    (c3 _ rfl).1, (c3 _ rfl).2, rfl, rfl, rfl, hs1⟩
  · unfold ObjectInfo.display
    rw [t1]
    simp only [Res.bind_ok]
  · obtain ⟨lines, l1, l2, l3⟩ := hall
    unfold readSymFile
    have : o.moduleText ++ o.codeIdText ++ extraText extra ++ filesText o.files.getMapping ++ originsText o.inlineOrigins ++ t ++
        o.stack = lines.flatMap (fun l => l ++ str% "\n") := by
      rw [← l1, hs1]
      simp [filesText, originsText, List.append_assoc]
    rw [this, textLines_lines lines l2]
    simp only [Option.bind_eq_bind, Option.bind_some, l3]
    have hb : build ([Rec.module o.platform.display o.cpu o.debugId o.fileName] ++ ((codeInfo o ++ extra.getD []).map Rec.info ++
        ((enumFrom 0 o.files.getMapping).map (fun e => Rec.file e.1 e.2) ++
        ((enumFrom 0 o.inlineOrigins).map (fun e => Rec.origin e.1 (originText e.2)) ++
        ((o.symbols.flatMap fun e => symRecs e.2) ++ ls.map Rec.stack))))) (done emptyFile) =
        some (done ⟨[(o.platform.display, o.cpu, o.debugId, o.fileName)], codeInfo o ++ extra.getD [], enumFrom 0 o.files.getMapping,
    (enumFrom 0 o.inlineOrigins).map (fun e => (e.1, originText e.2)), o.symbols.map (fun e => symOf e.2), ls⟩) := by
      rw [build_append, build_append, build_append, build_append, build_append, build_stack, Option.bind_some, build_symbols,
        Option.bind_some, build_origins, Option.bind_some, build_files, Option.bind_some, build_infos, Option.bind_some]
      simp [build, addRec, done, Building.settled, emptyFile]
    have hb' := hb
    unfold done emptyFile at hb'
    rw [hb']
    rfl

end Reader
end DumpSyms
