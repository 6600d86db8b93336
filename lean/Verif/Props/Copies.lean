import Verif.Spec.Copies
import Verif.Props.ThreadsSamples
import Verif.Props.MergeFrames
/-!
# C96: a module given several times
-/
namespace DumpSyms
open ObjectInfo

theorem SMap.insert_present {β : Type} {a b : List (Nat × β)} {k : Nat} {v v' : β} (h : SMap.Sorted (a ++ (k, v) :: b)) :
    SMap.insert (a ++ (k, v) :: b) k v' = a ++ (k, v') :: b := by
  induction a with
  | nil => simp [SMap.insert]
  | cons x a ih =>
    obtain ⟨k', w⟩ := x
    have h' : SMap.Sorted ((k', w) :: (a ++ (k, v) :: b)) := h
    unfold SMap.Sorted at h'
    rw [List.pairwise_cons] at h'
    have hlt := h'.1 (k, v) (by simp)
    simp only [natLt_iff] at hlt
    simp only [List.cons_append, SMap.insert]
    rw [if_neg (by omega), if_neg (by simp; omega), ih h'.2]

theorem sorted_map (f g : Symbol → Symbol) {a b : List (Nat × Symbol)} (h : SMap.Sorted (a ++ b)) :
    SMap.Sorted ((a.map fun e => (e.1, f e.2)) ++ b.map fun e => (e.1, g e.2)) := by
  rw [SMap.keys_pairwise_iff] at h ⊢
  simpa [List.map_append, List.map_map, Function.comp_def] using h

theorem mergeSyms_times (t : Option (List Nat)) (r : List Nat) (k : Nat) (hk : 0 < k) (b : List (Nat × Symbol)) :
    ∀ (a : List (Nat × Symbol)), SMap.Sorted (a ++ b) →
      mergeSyms t r b ((a.map fun e => (e.1, e.2.times (k + 1))) ++ b.map fun e => (e.1, e.2.times k)) =
        .ok ((a ++ b).map fun e => (e.1, e.2.times (k + 1))) := by
  induction b with
  | nil => intro a h; simp [mergeSyms]
  | cons x b ih =>
    intro a h
    obtain ⟨addr, s⟩ := x
    have hs := sorted_map (Symbol.times (k + 1)) (Symbol.times k) h
    have hget : SMap.get? ((a.map fun e => (e.1, e.2.times (k + 1))) ++ ((addr, s) :: b).map fun e => (e.1, e.2.times k)) addr = some (s.times k) :=
      SMap.get?_of_mem hs (by simp)
    have hnext := ih (a ++ [(addr, s)]) (by simpa using h)
    simp only [List.map_append, List.map_cons, List.map_nil, List.append_assoc, List.cons_append, List.nil_append] at hnext
    simp only [mergeSyms]
    by_cases hp : s.isPublic = true
    · have e1 : ∀ j, s.times j = s := fun j => by simp [Symbol.times, hp]
      rw [if_pos hp]
      have hm : mergePublic ((a.map fun e => (e.1, e.2.times (k + 1))) ++ ((addr, s) :: b).map fun e => (e.1, e.2.times k)) addr s =
          (a.map fun e => (e.1, e.2.times (k + 1))) ++ ((addr, s) :: b).map fun e => (e.1, e.2.times k) := by
        unfold mergePublic
        rw [hget, e1]
        split
        · rfl
        · simp only
          split
          · rfl
          · rw [if_neg (by simp)]
      rw [hm]
      simp only [e1, List.map_cons] at hnext ⊢
      rw [hnext]
      simp [e1]
    · rw [if_neg hp]
      have hp' : s.isPublic = false := by simpa using hp
      have e2 : (s.times k).isPublic = false := by
        unfold Symbol.times; split <;> simp [hp']
      have e3 : (⟨(s.times k).name, false, true, (s.times k).isSynthetic, (s.times k).rva, (s.times k).len, (s.times k).parameterSize,
          (s.times k).source⟩ : Symbol) = s.times (k + 1) := by
        have : ¬ (s.isPublic = true ∨ k + 1 ≤ 1) := by simp [hp']; omega
        unfold Symbol.times
        rw [if_neg this]
        split <;> simp [hp']
      have hm : mergeFunc t r ((a.map fun e => (e.1, e.2.times (k + 1))) ++ ((addr, s) :: b).map fun e => (e.1, e.2.times k)) addr s =
          .ok ((a.map fun e => (e.1, e.2.times (k + 1))) ++ (addr, s.times (k + 1)) :: b.map fun e => (e.1, e.2.times k)) := by
        unfold mergeFunc
        rw [hget]
        simp only [e2, Bool.false_eq_true, if_false]
        rw [e3, List.map_cons, SMap.insert_present (by simpa using hs)]
      rw [hm]
      simp only [Bind.bind, Res.bind]
      rw [hnext]
      simp

theorem mergeLoop_self {selfRef : List (Str × Nat)} {ids0 : List Str} (es : List (Str × Nat)) :
    ∀ (remap : List Nat) (ids : List Str), (∀ e ∈ es, e ∈ selfRef) → (∀ e ∈ es, e.2 < remap.length) →
      ∃ remap', SourceMap.mergeLoop selfRef ids0 es remap ids = .ok (remap', ids) := by
  induction es with
  | nil => intro remap ids _ _; exact ⟨remap, rfl⟩
  | cons e es ih =>
    intro remap ids h1 h2
    obtain ⟨p, i⟩ := e
    unfold SourceMap.mergeLoop
    rw [if_pos (h2 (p, i) (by simp))]
    have : ∃ j, selfRef.lookup p = some j := by
      have hm := h1 (p, i) (by simp)
      cases hl : selfRef.lookup p with
      | some j => exact ⟨j, rfl⟩
      | none =>
        rw [List.lookup_eq_none_iff] at hl
        have := hl (p, i) hm
        simp at this
    obtain ⟨j, hj⟩ := this
    simp only [hj]
    exact ih _ _ (fun e he => h1 e (by simp [he])) (fun e he => by simpa using h2 e (by simp [he]))

theorem files_self {order : List (Str × Nat) → List (Str × Nat)} (ho : IterOrder order) {f : SourceMap} (hf : f.WF) :
    ∃ t, f.merge order f = .ok (f, t) := by
  unfold SourceMap.merge
  split
  · exact ⟨_, rfl⟩
  · obtain ⟨remap, h⟩ := mergeLoop_self (selfRef := f.refToId) (ids0 := f.idToRef) (order f.refToId) (List.replicate f.idToRef.length 0) f.idToRef
      (fun e he => (ho _).mem_iff.mp he) (fun e he => by simpa using hf.below e ((ho _).mem_iff.mp he))
    rw [h]
    exact ⟨_, rfl⟩

theorem origins_times (l : List Str) (k : Nat) (hk : 0 < k) :
    (InlineOrigins.merge (List.replicate k l).flatten l).1 = (List.replicate (k + 1) l).flatten := by
  unfold InlineOrigins.merge
  have e : (List.replicate (k + 1) l).flatten = (List.replicate k l).flatten ++ l := by
    rw [List.replicate_succ', List.flatten_append]; simp
  split
  · next h => simp [h]
  · next h =>
    split
    · next h' =>
      obtain ⟨j, rfl⟩ : ∃ j, k = j + 1 := ⟨k - 1, by omega⟩
      rw [List.replicate_succ, List.flatten_cons, List.append_eq_nil_iff] at h'
      exact absurd h'.1 h
    · simp only; rw [e]

theorem stack_times (s : Str) (k : Nat) (hk : 0 < k) : mergeStack (stackTimes k s) s = stackTimes (k + 1) s := by
  obtain ⟨j, rfl⟩ : ∃ j, k = j + 1 := ⟨k - 1, by omega⟩
  by_cases hs : s = []
  · subst hs; simp [mergeStack, stackTimes]
  · have hn : stackTimes (j + 1) s ≠ [] := by
      intro h; exact hs (List.append_eq_nil_iff.mp h).2
    have hl : (stackTimes (j + 1) s).getLast? = s.getLast? := by
      unfold stackTimes
      rw [List.getLast?_append, List.getLast?_eq_some_getLast hs]; rfl
    unfold mergeStack
    rw [if_neg hn, if_neg hs, hl]
    unfold stackTimes
    simp only [Nat.add_sub_cancel]
    rw [List.replicate_succ', List.flatten_append]
    by_cases h : s.getLast? = some '\n' <;> simp [h, hs]

theorem times_one (o : ObjectInfo) : o.times 1 = o := by
  have : ∀ s : Symbol, s.times 1 = s := fun s => by simp [Symbol.times]
  simp [ObjectInfo.times, this, stackTimes]

/-- Merging a module into what was made of it already. -/
theorem merge_times {order : List (Str × Nat) → List (Str × Nat)} (ho : IterOrder order) {o : ObjectInfo} (hg : o.Good) (k : Nat) (hk : 0 < k) :
    ObjectInfo.merge order o (o.times k) = .ok (o.times (k + 1)) := by
  have hb : bySize o (o.times k) = (o.times k, o) := by
    unfold bySize
    rw [if_neg (by simp [ObjectInfo.times])]
  rw [merge_eq (l := o) (r := o.times k) rfl, hb]
  obtain ⟨t, ht⟩ := files_self ho hg.files
  have hsy := fun r => mergeSyms_times t r k hk o.symbols [] (by simpa using hg.sorted)
  simp only [List.map_nil, List.nil_append] at hsy
  unfold mergeInto
  have hf : (o.times k).files.merge order o.files = .ok (o.files, t) := ht
  rw [hf]
  simp only [Bind.bind, Res.bind]
  have hs' : ∀ r, mergeSyms t r o.symbols (o.times k).symbols = .ok (o.times (k + 1)).symbols := hsy
  rw [hs']
  simp only
  have h1 : (InlineOrigins.merge (o.times k).inlineOrigins o.inlineOrigins).1 = (o.times (k + 1)).inlineOrigins := origins_times _ k hk
  have h2 : mergeStack (o.times k).stack o.stack = (o.times (k + 1)).stack := stack_times _ k hk
  rw [h1, h2]
  simp [ObjectInfo.times]

/-! ## The printed symbol file -/

theorem symOf_times (k : Nat) (s : Symbol) : Reader.symOf (s.times k) = (Reader.symOf s).times k := by
  unfold Reader.symOf Reader.RSym.times Symbol.times
  by_cases hp : s.isPublic = true <;> by_cases hk : k ≤ 1 <;> simp [hp, hk]

theorem stack_replicate {s : Str} (h : s = [] ∨ s.getLast? = some '\n') (k : Nat) (hk : 0 < k) : stackTimes k s = (List.replicate k s).flatten := by
  obtain ⟨j, rfl⟩ : ∃ j, k = j + 1 := ⟨k - 1, by omega⟩
  unfold stackTimes
  rw [if_pos h, List.replicate_succ', List.flatten_append]
  simp

theorem stack_closed (ls : List Str) : (ls.flatMap (fun l => str% "STACK " ++ l ++ str% "\n")) = [] ∨
    (ls.flatMap (fun l => str% "STACK " ++ l ++ str% "\n")).getLast? = some '\n' := by
  rcases List.eq_nil_or_concat ls with rfl | ⟨ls, l, rfl⟩
  · exact .inl rfl
  · right
    rw [List.concat_eq_append, List.flatMap_append, List.getLast?_append]
    have : ([l].flatMap (fun l => str% "STACK " ++ l ++ str% "\n")).getLast? = some '\n' := by
      simp only [List.flatMap_cons, List.flatMap_nil, List.append_nil]
      rw [List.getLast?_append]; rfl
    rw [this]; rfl

theorem flatMap_replicate {α β : Type} (f : α → List β) (l : List α) (k : Nat) :
    (List.replicate k l).flatten.flatMap f = (List.replicate k (l.flatMap f)).flatten := by
  induction k with
  | zero => rfl
  | succ k ih => simp only [List.replicate_succ, List.flatten_cons, List.flatMap_append, ih]

theorem times_readable {o : ObjectInfo} {extra : List Str} (h : o.Readable extra) (k : Nat) (hk : 0 < k) : (o.times k).Readable extra where
  cpu := h.cpu
  debugId := h.debugId
  fileName := h.fileName
  files := h.files
  origins := by
    intro n hn
    obtain ⟨l, hl, hn⟩ := List.mem_flatten.mp hn
    rw [(List.mem_replicate.mp hl).2] at hn
    exact h.origins n hn
  names := by
    intro e he
    obtain ⟨e', he', rfl⟩ := List.mem_map.mp he
    have : (e'.2.times k).name = e'.2.name := by unfold Symbol.times; split <;> rfl
    show '\n' ∉ (e'.2.times k).name
    rw [this]
    exact h.names e' he'
  codeId := h.codeId
  peName := h.peName
  extraLines := h.extraLines
  extraCode := h.extraCode
  stack := by
    obtain ⟨ls, h1, h2⟩ := h.stack
    refine ⟨(List.replicate k ls).flatten, ?_, ?_⟩
    · show stackTimes k o.stack = _
      rw [h1, stack_replicate (stack_closed ls) k hk, flatMap_replicate]
    · intro l hl
      obtain ⟨m, hm, hl⟩ := List.mem_flatten.mp hl
      rw [(List.mem_replicate.mp hm).2] at hl
      exact h2 l hl

theorem enumFrom_map_snd {α β : Type} (f : α → β) (l : List α) (n : Nat) : (enumFrom n l).map (fun e => f e.2) = l.map f := by
  induction l generalizing n with
  | nil => rfl
  | cons x l ih => simp [enumFrom, ih]

theorem times_getElem? (l : List Str) (k : Nat) (hk : 0 < k) {n : Nat} (hn : n < l.length) : (List.replicate k l).flatten[n]? = l[n]? := by
  obtain ⟨j, rfl⟩ : ∃ j, k = j + 1 := ⟨k - 1, by omega⟩
  rw [List.replicate_succ, List.flatten_cons, List.getElem?_append_left hn]

/-- **C96.** The symbol file of a module that was given `k` times, compared with that of the module given once: the same MODULE, INFO and FILE
records, the same FUNC and PUBLIC records with the same lines and inlined calls (but for the mark `m` on each FUNC), and `k` times the
INLINE_ORIGIN and STACK records.  Lookups find the same frames. -/
theorem C96_printed (o : ObjectInfo) (hd : Dumped o) (k : Nat) (hk : 0 < k) (extra : Option (List Str)) (hr : o.Readable (extra.getD [])) :
    ∃ text file textK fileK, o.display extra = .ok text ∧ Reader.readSymFile text = some file ∧
      (o.times k).display extra = .ok textK ∧ Reader.readSymFile textK = some fileK ∧
      fileK.modules = file.modules ∧ fileK.codeId = file.codeId ∧ fileK.extra = file.extra ∧ fileK.files = file.files ∧
      fileK.symbols = file.symbols.map (·.times k) ∧
      fileK.origins.map (·.2) = (List.replicate k (file.origins.map (·.2))).flatten ∧
      (fileK.stack.flatMap fun l => str% "STACK " ++ l ++ str% "\n") =
        (List.replicate k (file.stack.flatMap fun l => str% "STACK " ++ l ++ str% "\n")).flatten ∧
      ∀ a, fileK.framesAt a = file.framesAt a := by
  have hg := hd.good
  have hget : ∀ e ∈ o.symbols, o.symbols.get? e.1 = some e.2 := fun e he => SMap.get?_of_mem hg.sorted he
  obtain ⟨text, file, a1, a2, a3, a4, a5, a6, a7, a8, a9⟩ := Reader.read_display hr (fun e he => (hg.inlines _ _ (hget e he)).2)
  obtain ⟨textK, fileK, b1, b2, b3, b4, b5, b6, b7, b8, b9⟩ := Reader.read_display (times_readable hr k hk) (by
    intro e he
    obtain ⟨e', he', rfl⟩ := List.mem_map.mp he
    have : (e'.2.times k).source = e'.2.source := by unfold Symbol.times; split <;> rfl
    show ∀ i ∈ (e'.2.times k).source.inlines, _
    rw [this]
    exact (hg.inlines _ _ (hget e' he')).2)
  have hsym : fileK.symbols = file.symbols.map (·.times k) := by
    rw [b8, a8, List.map_map]
    show (o.symbols.map fun e => (e.1, e.2.times k)).map _ = _
    rw [List.map_map]
    exact List.map_congr_left fun e _ => symOf_times k e.2
  refine ⟨text, file, textK, fileK, a1, a2, b1, b2, b3.trans a3.symm, b4.trans a4.symm, b5.trans a5.symm, b6.trans a6.symm, hsym, ?_, ?_, ?_⟩
  · rw [b7, a7, List.map_map, List.map_map]
    show (enumFrom 0 (List.replicate k o.inlineOrigins).flatten).map (fun e => originText e.2) =
      (List.replicate k ((enumFrom 0 o.inlineOrigins).map fun e => originText e.2)).flatten
    rw [enumFrom_map_snd, enumFrom_map_snd, List.map_flatten, List.map_replicate]
  · rw [← b9, ← a9]
    refine stack_replicate ?_ k hk
    rw [a9]; exact stack_closed _
  · intro a
    have hpub : ∀ r : Reader.RSym, (r.times k).isPublic = r.isPublic := by intro r; unfold Reader.RSym.times; split <;> rfl
    have hrva : ∀ r : Reader.RSym, (r.times k).rva = r.rva := by intro r; unfold Reader.RSym.times; split <;> rfl
    have hlen : ∀ r : Reader.RSym, (r.times k).len = r.len := by intro r; unfold Reader.RSym.times; split <;> rfl
    have hinl : ∀ r : Reader.RSym, (r.times k).inlines = r.inlines := by intro r; unfold Reader.RSym.times; split <;> rfl
    have hlin : ∀ r : Reader.RSym, (r.times k).lines = r.lines := by intro r; unfold Reader.RSym.times; split <;> rfl
    have hnam : ∀ r : Reader.RSym, (r.times k).name = r.name := by intro r; unfold Reader.RSym.times; split <;> rfl
    have hfunc : fileK.funcAt a = (file.funcAt a).map (·.times k) := by
      unfold Reader.SymFile.funcAt
      rw [hsym, List.filter_map, List.getLast?_map]
      simp only [Function.comp_def, hpub, hrva]
      cases (file.symbols.filter fun r => !r.isPublic && decide (r.rva ≤ a)).getLast? with
      | none => rfl
      | some r =>
        simp only [Option.map_some, hrva, hlen]
        split <;> rfl
    unfold Reader.SymFile.framesAt
    rw [hfunc, Option.map_map]
    cases hf : file.funcAt a with
    | none => rfl
    | some r =>
      simp only [Option.map_some, Function.comp_def, hinl, hnam, Option.some.injEq]
      obtain ⟨addr, s, c1, c2, rfl, _⟩ := funcAt_some a8 hg.sorted hg.keyed hf
      have hids := hg.ids _ _ c1
      apply Reader.framesFrom_congr
      · intro d
        have e : ((Reader.symOf s).times k).inlineAt a d = (Reader.symOf s).inlineAt a d := by
          unfold Reader.RSym.inlineAt; rw [hinl]
        rw [e]
        cases hi : (Reader.symOf s).inlineAt a d with
        | none => rfl
        | some site =>
          have hmem : ∃ e ∈ s.source.inlines, e.1 = site := by
            unfold Reader.RSym.inlineAt at hi
            obtain ⟨e, he, rfl⟩ := Option.map_eq_some_iff.mp hi
            have := List.mem_of_find?_eq_some he
            unfold Reader.symOf at this
            rw [if_neg (by simp [c2])] at this
            exact ⟨e, (isort_perm _ _).mem_iff.mp this, rfl⟩
          obtain ⟨e, he, rfl⟩ := hmem
          have h1 := (hids.2 e he).2
          simp only [Option.map_some]
          rw [path_read b6, path_read a6, origin_read b7, origin_read a7]
          have : (o.times k).inlineOrigins[e.1.originId]? = o.inlineOrigins[e.1.originId]? := times_getElem? _ k hk h1
          rw [this]
          rfl
      · rw [hlin]
        cases lookupLine (Reader.symOf s).lines a with
        | none => rfl
        | some x => simp only [Option.map_some]; rw [path_read b6, path_read a6]; rfl

namespace Threads

theorem made_times {env : Env} (hh : ∀ l, IterOrder (env.hash l)) {o : ObjectInfo} (hg : o.Good) {l : List Nat} {p : ObjectInfo} (h : Made env l p)
    (hp : ∀ f ∈ l, env.parse f = .ok o) : p = o.times l.length ∧ 0 < l.length := by
  induction h with
  | one f o' ho =>
    have := hp f (by simp)
    rw [ho] at this; cases this
    exact ⟨(times_one o).symm, by simp⟩
  | more f l o' p c ho _ hm ih =>
    have := hp f (by simp)
    rw [ho] at this; cases this
    obtain ⟨rfl, hpos⟩ := ih fun f hf => hp f (by simp [hf])
    rw [merge_times (hh _) hg _ hpos] at hm
    cases hm
    exact ⟨rfl, by simp⟩

/-- **C96.** What a run over several files writes for a module that is given by some of the files, all with the same dump and no other file
having its debug id: the module given as many times as there are such files. -/
theorem C96_times (env : Env) (ho : env.Ok) (hh : ∀ l, IterOrder (env.hash l)) (o : ObjectInfo) (hd : Dumped o) (given : List Nat) (hn : given.Nodup)
    (hsame : ∀ f, f ∈ given ↔ f < env.files ∧ env.parse f = .ok o) (honly : ∀ f, f < env.files → HasId env f o.debugId → env.parse f = .ok o)
    (s : State) (h : Reachable env s) (d : Item) (hdl : d ∈ s.log) (hid : d.info.debugId = o.debugId) : d.info = o.times given.length := by
  obtain ⟨hm, hnd, hsrc⟩ := (C49_once env ho s h).2 d hdl
  rw [hid] at hsrc
  have hmem : ∀ f, f ∈ d.src ↔ f ∈ given := by
    intro f
    rw [hsrc, hsame]
    exact ⟨fun ⟨h1, h2⟩ => ⟨h1, honly f h1 h2⟩, fun ⟨h1, h2⟩ => ⟨h1, o, h2, rfl⟩⟩
  have hlen : d.src.length = given.length := ((List.perm_ext_iff_of_nodup hnd hn).mpr hmem).length_eq
  rw [← hlen]
  exact (made_times hh hd.good hm fun f hf => ((hsame f).mp ((hmem f).mp hf)).2).1

/-- Three inputs: a module, another one, and the first one again. -/
def thrice : Nat → Res ObjectInfo := fun f => if f = 1 then .ok (plain (str% "B")) else .ok (theObj (dumpOf mA))

/-- A run over them that returns, having written the first module as given twice, and the other one. -/
example : Reachable (okEnv 2 3 thrice) (final (okEnv 2 3 thrice) goodRun) ∧ (final (okEnv 2 3 thrice) goodRun).Returned (okEnv 2 3 thrice) ∧
    (final (okEnv 2 3 thrice) goodRun).log.map (fun d => d.info) = [(theObj (dumpOf mA)).times 2, plain (str% "B")] :=
  ⟨final_reachable (by decide +kernel), by decide +kernel, by decide +kernel⟩

/-- **Giving a module twice changes its symbol file.** The FUNC gets a mark, and the INLINE_ORIGIN and STACK records are
doubled. -/
theorem C96_twice_witness : ∃ o M : ObjectInfo, Dumped o ∧ ObjectInfo.merge id o o = .ok M ∧
    o.display none = .ok (str% "MODULE Linux x86_64 1DE0 lib.so.debug\nFILE 0 git:x.c\nFILE 1 /c/y.c\nINLINE_ORIGIN 0 g()\nFUNC 1000 10 0 a()\nINLINE 0 10 0 0 1002 2\nINLINE 0 10 1 0 100a 2\n1000 2 10 0\n1002 2 50 0\n1004 4 10 0\n1008 2 10 1\n100a 2 50 0\n100c 4 10 1\nSTACK CFI 1\n") ∧
    M.display none = .ok (str% "MODULE Linux x86_64 1DE0 lib.so.debug\nFILE 0 git:x.c\nFILE 1 /c/y.c\nINLINE_ORIGIN 0 g()\nINLINE_ORIGIN 1 g()\nFUNC m 1000 10 0 a()\nINLINE 0 10 0 0 1002 2\nINLINE 0 10 1 0 100a 2\n1000 2 10 0\n1002 2 50 0\n1004 4 10 0\n1008 2 10 1\n100a 2 50 0\n100c 4 10 1\nSTACK CFI 1\nSTACK CFI 1\n") :=
  ⟨theObj (dumpOf mA), _, ⟨_, mA_dumped⟩, rfl, by decide +kernel, by decide +kernel⟩

end Threads
end DumpSyms
