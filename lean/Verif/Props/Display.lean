import Verif.Proof.Reader
import Verif.Props.Line
import Verif.Props.Merge
import Verif.Props.MergeSamples
/-!
# C04, C06 (printing), C26: the printed symbol file
-/
namespace DumpSyms
open Collector ObjectInfo Reader

theorem good_display {o : ObjectInfo} (h : o.Good) (extra : Option (List Str)) : ∃ text, o.display extra = .ok text := by
  have hi : ∀ e ∈ o.symbols, ∀ i ∈ e.2.source.inlines, i.2 ≠ [] :=
    fun e he => (h.inlines _ _ (SMap.get?_of_mem h.sorted he)).2
  have : ∀ m : List (Nat × Symbol), (∀ e ∈ m, ∀ i ∈ e.2.source.inlines, i.2 ≠ []) → ∃ t, symbolsText m = .ok t := by
    intro m
    induction m with
    | nil => intro _; exact ⟨_, rfl⟩
    | cons e m ih =>
      intro hm
      obtain ⟨t, ht⟩ := ih fun e he => hm e (by simp [he])
      obtain ⟨k, s⟩ := e
      have hd : ∃ t, s.display = .ok t := by
        unfold Symbol.display
        split
        · exact ⟨_, rfl⟩
        · have : s.source.display = .ok (((isort Lines.inlineKeyLe s.source.inlines).flatMap fun e => Lines.printInline e.1 e.2) ++
              s.source.lines.flatMap Lines.printLine) := by
            unfold Lines.display
            rw [if_neg]
            simp only [Bool.and_eq_true, List.any_eq_true, not_exists, not_and]
            intro _ i hii
            simpa using hm (k, s) (by simp) i hii
          rw [this]; exact ⟨_, rfl⟩
      obtain ⟨t', ht'⟩ := hd
      exact ⟨_, by unfold symbolsText; rw [ht', ht]; rfl⟩
  obtain ⟨t, ht⟩ := this o.symbols hi
  exact ⟨_, by unfold ObjectInfo.display; rw [ht]; rfl⟩

/-- Elements that the order does not tell apart stay in their order. -/
theorem isort_stable {α : Type} {le : α → α → Bool} {S : α → α → Prop} (htot : ∀ a b, le a b = true ∨ le b a = true)
    (htr : ∀ a b c, le a b = true → le b c = true → le a c = true) {l : List α} (h : l.Pairwise S) :
    (isort le l).Pairwise fun a b => le a b = true ∧ (le b a = true → S a b) := by
  have key : ∀ (x : α) (l : List α), l.Pairwise (fun a b => le a b = true ∧ (le b a = true → S a b)) → (∀ y ∈ l, S x y) →
      (insertLe le x l).Pairwise fun a b => le a b = true ∧ (le b a = true → S a b) := by
    intro x l
    induction l with
    | nil => intro _ _; exact List.pairwise_singleton _ _
    | cons y ys ih =>
      intro hl hx
      rw [List.pairwise_cons] at hl
      unfold insertLe
      split
      · rename_i hle
        refine List.pairwise_cons.mpr ⟨fun z hz => ?_, List.pairwise_cons.mpr hl⟩
        rcases List.mem_cons.mp hz with rfl | hz'
        · exact ⟨hle, fun _ => hx _ (by simp)⟩
        · exact ⟨htr _ _ _ hle (hl.1 z hz').1, fun _ => hx z hz⟩
      · rename_i hle
        refine List.pairwise_cons.mpr ⟨fun z hz => ?_, ih hl.2 fun z hz => hx z (by simp [hz])⟩
        rcases List.mem_cons.mp ((insertLe_perm le x ys).mem_iff.mp hz) with rfl | hz'
        · exact ⟨(htot _ _).resolve_left hle, fun h => absurd h hle⟩
        · exact hl.1 z hz'
  induction l with
  | nil => exact .nil
  | cons x xs ih =>
    rw [List.pairwise_cons] at h
    exact key x _ (ih h.2) fun y hy => h.1 y (mem_isort.mp hy)

theorem display_body {L : Lines} (h1 : SMap.Sorted L.inlines) (h2 : ∀ e ∈ L.inlines, e.2 ≠ []) :
    ∃ text, L.display = .ok text ∧ FuncBody L.inlines L.lines text := by
  have hd : L.display = .ok (((isort Lines.inlineKeyLe L.inlines).flatMap fun e => Lines.printInline e.1 e.2) ++
      L.lines.flatMap Lines.printLine) := by
    unfold Lines.display
    rw [if_neg]
    simp only [Bool.and_eq_true, List.any_eq_true, not_exists, not_and]
    intro _ i hii
    simpa using h2 i hii
  have h2' : ∀ e ∈ isort Lines.inlineKeyLe L.inlines, e.2 ≠ [] := fun e he => h2 e (mem_isort.mp he)
  have hi : Block ((isort Lines.inlineKeyLe L.inlines).flatMap fun e => Lines.printInline e.1 e.2)
      ((isort Lines.inlineKeyLe L.inlines).map fun e => Rec.inline e.1 e.2) := by
    rw [List.map_eq_flatMap]
    exact Block.flatMap fun e he => block_inline e (h2' e he)
  have hl : Block (L.lines.flatMap Lines.printLine) (L.lines.map Rec.line) := by
    rw [List.map_eq_flatMap]
    exact Block.flatMap fun l _ => block_line l
  obtain ⟨ls, b1, b2, b3⟩ := hi.append hl
  refine ⟨_, hd, isort Lines.inlineKeyLe L.inlines, ls, by rw [b1]; exact textLines_lines ls b2, b3, isort_perm _ _, ?_, ?_⟩
  · rw [((isort_perm Lines.inlineKeyLe L.inlines).map (·.1)).nodup_iff]
    rw [SMap.keys_pairwise_iff] at h1
    exact h1.imp (fun h heq => by rw [heq] at h; rw [StrictOrd.irrefl] at h; cases h)
  · refine List.Pairwise.imp_of_mem ?_ (isort_stable Lines.inlineKeyLe_total Lines.inlineKeyLe_trans h1)
    intro a b ha hb hab
    have h1 := h2' a ha
    have h2 := h2' b hb
    obtain ⟨sa, la⟩ := a
    obtain ⟨sb, lb⟩ := b
    cases la with
    | nil => exact absurd rfl h1
    | cons ra la =>
      cases lb with
      | nil => exact absurd rfl h2
      | cons rb lb =>
        refine ⟨ra, rb, rfl, rfl, ?_⟩
        have h : (decide (ra.rva < rb.rva) || (decide (ra.rva = rb.rva) && decide (sa.depth ≤ sb.depth))) = true ∧
            ((decide (rb.rva < ra.rva) || (decide (rb.rva = ra.rva) && decide (sb.depth ≤ sa.depth))) = true → InlineSite.lt sa sb = true) := hab
        simp only [InlineSite.lt, Bool.or_eq_true, Bool.and_eq_true, decide_eq_true_eq] at h
        unfold Before
        simp only
        omega

/-- **C04.** For any history of insertions the body of a function prints without panic: first one INLINE record per call site (each
site that has a range, once, with all its ranges), in ascending order of (start of the first range, depth, function called, line, file),
then one line record per line, in order. -/
theorem C04_display_no_panic_and_order (ops : List LOp) (symRva symLen : Nat) :
    ∃ L text, (Lines.run ops).finalize symRva symLen = .ok L ∧ L.display = .ok text ∧ FuncBody L.inlines L.lines text ∧
      ∀ site, (∃ rs, (site, rs) ∈ L.inlines) ↔ rangesOf site ops ≠ [] := by
  obtain ⟨L, h1, h2, h3, h4⟩ := finalized_sites ops symRva symLen
  obtain ⟨text, t1, t2⟩ := display_body h2 h3
  exact ⟨L, text, h1, t1, t2, h4⟩

/-- **C04, when it would panic.** Printing panics exactly when there are several call sites and one of them has no range, which no insertion
leads to. -/
theorem C04_panics_iff (L : Lines) : L.display = .panic ↔ 2 ≤ L.inlines.length ∧ ∃ e ∈ L.inlines, e.2 = [] := by
  unfold Lines.display
  split
  · rename_i h
    simp only [Bool.and_eq_true, decide_eq_true_eq, List.any_eq_true, List.isEmpty_iff] at h
    exact ⟨fun _ => h, fun _ => rfl⟩
  · rename_i h
    simp only [Bool.and_eq_true, decide_eq_true_eq, List.any_eq_true, List.isEmpty_iff] at h
    exact ⟨fun e => (by cases e), fun e => absurd e h⟩

/-- One call site without a range would be printed. -/
example : ({ Lines.new with inlines := [(⟨0, 0, 1, 0⟩, [])] } : Lines).display = .ok (str% "INLINE 0 1 0 0\n") := by decide

/-- **C04, whole files.** Printing the result of any sequence of dumps and merges never panics, and the bodies of its functions are
printed in the same way. -/
theorem C04_merged_display (t : MTree) (id : Str) (h : t.Ok id) (extra : Option (List Str)) :
    ∃ o text, t.eval = .ok o ∧ o.display extra = .ok text ∧
      ∀ e ∈ o.symbols, ∃ body, e.2.source.display = .ok body ∧ FuncBody e.2.source.inlines e.2.source.lines body := by
  obtain ⟨o, h1, h2, _⟩ := h.good
  obtain ⟨text, ht⟩ := good_display h2 extra
  refine ⟨o, text, h1, ht, ?_⟩
  intro e he
  obtain ⟨k1, k2⟩ := h2.inlines _ _ (SMap.get?_of_mem h2.sorted he)
  exact display_body k1 k2

theorem enumFrom_getElem? {α : Type} (l : List α) (n i : Nat) : (enumFrom n l)[i]? = (l[i]?).map fun x => (n + i, x) := by
  induction l generalizing n i with
  | nil => rfl
  | cons a l ih =>
    cases i with
    | zero => rfl
    | succ i =>
      simp only [enumFrom, List.getElem?_cons_succ, ih]
      congr 1
      funext x
      congr 1
      omega

theorem dropWhile_nil_iff (p : Char → Bool) (s : Str) : s.dropWhile p = [] ↔ ∀ c ∈ s, p c = true := by
  induction s with
  | nil => simp
  | cons c s ih =>
    rw [List.dropWhile_cons]
    cases hc : p c <;> simp [hc, ih]

theorem trim_nil_iff (s : Str) : trim s = [] ↔ Blank s := by
  unfold trim trimEnd trimStart Blank
  rw [List.reverse_eq_nil_iff, dropWhile_nil_iff]
  constructor
  · intro h c hc
    cases hw : isWhitespace c with
    | true => rfl
    | false =>
      have : c ∈ s.dropWhile isWhitespace := by
        have hs : s = s.takeWhile isWhitespace ++ s.dropWhile isWhitespace := (List.takeWhile_append_dropWhile).symm
        rw [hs] at hc
        rcases List.mem_append.mp hc with h' | h'
        · have := List.all_eq_true.mp List.all_takeWhile c h'
          rw [hw] at this; cases this
        · exact h'
      have := h c (List.mem_reverse.mpr this)
      rw [hw] at this; cases this
  · intro h c hc
    exact h c ((List.dropWhile_sublist _).subset (List.mem_reverse.mp hc))

/-- **C06, printing.** Each INLINE_ORIGIN record is printed with the stored name, or with a fixed text when the stored name is
blank; no printed name is blank, and none has a control character if the stored names have none. -/
theorem C06_origin_records (names : List Str) :
    ∃ printed : List Str, printed.length = names.length ∧
      originsText names = (printed.zipIdx.flatMap fun e => str% "INLINE_ORIGIN " ++ dec e.2 ++ str% " " ++ e.1 ++ str% "\n") ∧
      ∀ (i : Nat) n p, names[i]? = some n → printed[i]? = some p → ¬ Blank p ∧ (¬ Blank n → p = n) ∧
        ((∀ c ∈ n, isAsciiControl c = false) → ∀ c ∈ p, isAsciiControl c = false) := by
  refine ⟨names.map originText, by simp, ?_, ?_⟩
  · unfold originsText
    have : ∀ n, (enumFrom n names).flatMap (fun e => str% "INLINE_ORIGIN " ++ dec e.1 ++ str% " " ++ originText e.2 ++ str% "\n") =
        (((names.map originText).zipIdx n).flatMap fun e => str% "INLINE_ORIGIN " ++ dec e.2 ++ str% " " ++ e.1 ++ str% "\n") := by
      induction names with
      | nil => intro n; rfl
      | cons a l ih => intro n; simp only [enumFrom, List.map_cons, List.zipIdx_cons, List.flatMap_cons, ih]
    exact this 0
  · intro i n p hn hp
    rw [List.getElem?_map, hn] at hp
    cases hp
    unfold originText
    by_cases hb : trim n = []
    · rw [if_pos hb]
      have hb' := (trim_nil_iff n).mp hb
      refine ⟨fun h => ?_, fun h => absurd hb' h, fun _ => by decide⟩
      have := h 'n' (by decide)
      exact absurd this (by decide)
    · rw [if_neg hb]
      exact ⟨fun h => hb ((trim_nil_iff n).mpr h), fun _ => rfl, fun h => h⟩

example : originsText [str% "f()", [], str% " \t"] =
    str% "INLINE_ORIGIN 0 f()\nINLINE_ORIGIN 1 <name omitted>\nINLINE_ORIGIN 2 <name omitted>\n" := by decide

theorem symOf_reads {s : Symbol} (h : s.isPublic = true → s.NoRecords) : (symOf s).Reads s := by
  unfold symOf
  cases hp : s.isPublic with
  | true =>
    have hn := h hp
    exact ⟨by simp [hp], rfl, rfl, by simp [hp], rfl, rfl, by simp [hn.1], by simp [hn.2]⟩
  | false =>
    exact ⟨by simp [hp], rfl, rfl, fun _ => rfl, rfl, rfl, rfl, isort_perm _ _⟩

/-- **C26.** The symbol file of any dumped or merged object can be read back: the reader recovers the module record, the code
id, the extra information, the FILE and INLINE_ORIGIN tables, every symbol with its records, and the unwind text. -/
theorem C26_round_trip (t : MTree) (id : Str) (h : t.Ok id) (o : ObjectInfo) (ho : t.eval = .ok o)
    (extra : Option (List Str)) (hr : o.Readable (extra.getD [])) :
    ∃ text f, o.display extra = .ok text ∧ readSymFile text = some f ∧
      f.modules = [(osName o.platform, o.cpu, o.debugId, o.fileName)] ∧
      f.codeId = o.codeId.map (fun c => (c, o.peName)) ∧ f.extra = extra.getD [] ∧
      (∀ i : Nat, f.files[i]? = (o.files.getMapping[i]?).map fun p => (i, p)) ∧
      (∀ i : Nat, f.origins[i]? = (o.inlineOrigins[i]?).map fun n => (i, if Blank n then str% "<name omitted>" else n)) ∧
      f.symbols.length = o.symbols.length ∧ (∀ (i : Nat) (r : RSym) e, f.symbols[i]? = some r → o.symbols[i]? = some e → r.Reads e.2) ∧
      o.stack = f.stack.flatMap (fun l => str% "STACK " ++ l ++ str% "\n") := by
  obtain ⟨o', h1, h2, _⟩ := h.good
  rw [ho] at h1; cases h1
  have hg : ∀ e ∈ o.symbols, o.symbols.get? e.1 = some e.2 := fun e he => SMap.get?_of_mem h2.sorted he
  obtain ⟨text, f, a1, a2, a3, a4, a5, a6, a7, a8, a9⟩ := read_display hr (fun e he => (h2.inlines _ _ (hg e he)).2)
  refine ⟨text, f, a1, a2, by rw [a3]; cases o.platform <;> rfl, a4, a5, ?_, ?_, by rw [a8]; simp, ?_, a9⟩
  · intro i; rw [a6, enumFrom_getElem?]; simp
  · intro i
    rw [a7, List.getElem?_map, enumFrom_getElem?]
    cases o.inlineOrigins[i]? with
    | none => rfl
    | some n =>
      simp only [Option.map_some, Nat.zero_add, Option.some.injEq, Prod.mk.injEq, true_and]
      unfold originText
      by_cases hb : trim n = []
      · rw [if_pos hb, if_pos ((trim_nil_iff n).mp hb)]
      · rw [if_neg hb, if_neg (fun h => hb ((trim_nil_iff n).mpr h))]
  · intro i r e hri hei
    rw [a8, List.getElem?_map, hei] at hri
    cases hri
    exact symOf_reads (h2.pubs _ _ (hg e (List.mem_of_getElem? hei)))

/-- The merged sample. -/
def printSample : ObjectInfo := theObj (ObjectInfo.merge id (theObj (dumpOf mC)) (theObj (dumpOf mA)))

/-- The hypothesis `Readable` holds of an actual merged object. -/
example : printSample.Readable [str% "GENERATOR x"] where
  cpu := by decide
  debugId := by decide
  fileName := by decide
  files := by decide
  origins := by decide
  names := by decide
  codeId := by intro c hc; have : c = str% "AB12" := Option.some.inj (hc.symm.trans (by decide)); subst this; decide
  peName := by intro p hp; cases (hp.symm.trans (by decide : printSample.peName = none))
  extraLines := by decide
  extraCode := by intro h; cases (h.symm.trans (by decide : printSample.codeId = some (str% "AB12")))
  stack := ⟨[str% "CFI 2", str% "CFI 1"], by decide, by decide⟩

set_option maxRecDepth 20000 in
/-- What is printed for it. -/
example : printSample.display (some [str% "GENERATOR x"]) = .ok (str%
"MODULE Linux x86_64 1DE0 lib.so\nINFO CODE_ID AB12\nINFO GENERATOR x\nFILE 0 /c/y.c\nFILE 1 git:x.c\nINLINE_ORIGIN 0 g()\nFUNC 1000 10 0 a()\nINLINE 0 10 1 0 1002 2\nINLINE 0 10 0 0 100a 2\n1000 2 10 1\n1002 2 50 1\n1004 4 10 1\n1008 2 10 0\n100a 2 50 1\n100c 4 10 0\nFUNC 3000 10 0 c1()\n3000 10 31 0\nFUNC 3010 10 0 c2()\n3010 10 32 1\nFUNC 3020 10 0 c3()\nSTACK CFI 2\nSTACK CFI 1\n") := by
  decide

def nlObj : ObjInput := objOf sid true [.mk 0x1000 4 (nm (str% "a\nPUBLIC 9 0 b")) sampleComp [] []] []

/-- The hypothesis on names is needed: function names are printed as they are, so that a name with a newline in it adds
records to the file. -/
theorem C26_newline_witness : ∃ (o : ObjectInfo) (text : Str) (f : SymFile), DumpedUnder sampleEnv.mapping o ∧
    o.display none = .ok text ∧ readSymFile text = some f ∧ o.symbols.length = 1 ∧ f.symbols.length = 2 :=
  ⟨theObj (dumpOf nlObj), _, _, dumpOf_dumped (m := nlObj) (fs := [.mk 0x1000 4 (nm (str% "a\nPUBLIC 9 0 b")) sampleComp [] []]) rfl (by
    simp only [List.mem_cons, List.not_mem_nil, or_false, forall_eq]
    exact sampleNode _ _ _ _ _ (by decide) (by simp)) (by intro es h; cases h) rfl, rfl, rfl, by decide, by decide⟩

end DumpSyms
