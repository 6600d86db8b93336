import Verif.Spec.MappingFile
import Verif.Props.MappedPaths
import Verif.Proof.CrashCollect
import Verif.Props.UnitTests
/-!
# C103: which mapping configurations are accepted
-/
namespace DumpSyms
namespace Mapping
namespace Json

theorem asString_iff (v : Json) (s : Str) : v.asString = some s ↔ v = .string s := by
  cases v <;> simp [asString]

theorem mapM_asString (l : List Json) (ss : List Str) : l.mapM asString = some ss ↔ l = ss.map .string := by
  induction l generalizing ss with
  | nil => cases ss <;> simp
  | cons v l ih =>
    rw [List.mapM_cons]
    constructor
    · intro h
      cases hv : v.asString with
      | none => rw [hv] at h; cases h
      | some x =>
        rw [hv] at h
        cases hl : l.mapM asString with
        | none => rw [hl] at h; cases h
        | some xs =>
          rw [hl] at h
          cases h
          rw [(asString_iff v x).mp hv, (ih xs).mp hl]
          rfl
    · intro h
      cases ss with
      | nil => cases h
      | cons s ss =>
        injection h with h1 h2
        rw [(asString_iff v s).mpr h1, (ih ss).mpr h2]
        rfl

theorem asStrings_iff (v : Json) (ss : List Str) : v.asStrings = some ss ↔ IsStrings v ss := by
  unfold IsStrings
  cases v <;> simp [asStrings, mapM_asString]

/-- What is still to be found of a field: nothing more if it was met, else exactly one entry. -/
def Slot {α : Type} (l : List (Str × Json)) (key : Str) (P : Json → α → Prop) (met : Option α) (a : α) : Prop :=
  match met with
  | some x => x = a ∧ l.filter (fun p => p.1 = key) = []
  | none => ∃ v, OneEntry l key v ∧ P v a

theorem slot_skip {α : Type} {l : List (Str × Json)} {key k : Str} {v : Json} {P : Json → α → Prop} {met : Option α} {a : α} (h : k ≠ key) :
    Slot ((k, v) :: l) key P met a ↔ Slot l key P met a := by
  unfold Slot OneEntry
  simp [h]

/-- One step: a field that was met before fails, else the entry must be its value. -/
theorem slot_once {α β : Type} {l : List (Str × Json)} {key : Str} {v : Json} {P : Json → α → Prop} {read : Json → Option α}
    (hread : ∀ v x, read v = some x ↔ P v x) {met : Option α} {a : α} {next : α → Option β} {b : β} {Q : Prop}
    (hnext : ∀ x, next x = some b ↔ Slot l key P (some x) a ∧ Q) :
    (once met (read v)).bind next = some b ↔ Slot ((key, v) :: l) key P met a ∧ Q := by
  cases met with
  | some x => simp [once, Slot]
  | none =>
    simp only [once, Option.bind_eq_some_iff, hnext, hread]
    simp only [Slot, OneEntry, List.filter_cons, decide_true, if_true, List.cons.injEq, Prod.mk.injEq, true_and]
    constructor
    · rintro ⟨x, h1, ⟨rfl, h2⟩, hq⟩
      exact ⟨⟨v, ⟨rfl, h2⟩, h1⟩, hq⟩
    · rintro ⟨⟨w, ⟨rfl, h2⟩, h1⟩, hq⟩
      exact ⟨a, h1, ⟨rfl, h2⟩, hq⟩

theorem slot_nil {α : Type} {key : Str} {P : Json → α → Prop} {met : Option α} {a : α} : Slot [] key P met a ↔ met = some a := by
  cases met <;> simp [Slot, OneEntry]

theorem entryEnd_iff (s d : Option Str) (f : Option (List Str)) (e : Entry) :
    entryEnd s d f = some e ↔ s = some e.source ∧ d = some e.destination ∧ f = some e.files := by
  constructor
  · intro h
    unfold entryEnd at h
    split at h
    · cases h; exact ⟨rfl, rfl, rfl⟩
    · cases h
  · rintro ⟨rfl, rfl, rfl⟩; rfl

theorem entryLoop_iff (l : List (Str × Json)) (s d : Option Str) (f : Option (List Str)) (e : Entry) :
    entryLoop l s d f = some e ↔ Slot l (str% "source") (fun v x => v = .string x) s e.source ∧
      Slot l (str% "destination") (fun v x => v = .string x) d e.destination ∧ Slot l (str% "files") IsStrings f e.files := by
  induction l generalizing s d f with
  | nil => rw [entryLoop, entryEnd_iff, slot_nil, slot_nil, slot_nil]
  | cons p l ih =>
    obtain ⟨k, v⟩ := p
    rw [entryLoop]
    by_cases h1 : k = str% "source"
    · subst h1
      rw [if_pos rfl, slot_skip (key := str% "destination") (by decide), slot_skip (key := str% "files") (by decide)]
      exact slot_once asString_iff fun x => ih (some x) d f
    · rw [if_neg h1, slot_skip h1]
      by_cases h2 : k = str% "destination"
      · subst h2
        rw [if_pos rfl, slot_skip (key := str% "files") (by decide), and_left_comm]
        exact slot_once asString_iff fun x => (ih s (some x) f).trans and_left_comm
      · rw [if_neg h2, slot_skip h2]
        by_cases h3 : k = str% "files"
        · subst h3
          rw [if_pos rfl, ← and_assoc, and_comm]
          exact slot_once asStrings_iff fun x => (ih s d (some x)).trans (by rw [← and_assoc, and_comm])
        · rw [if_neg h3, slot_skip h3, ih]

theorem asEntry_iff (v : Json) (e : Entry) : v.asEntry = some e ↔ IsEntry v e := by
  unfold IsEntry
  cases v with
  | object l =>
    rw [asEntry, entryLoop_iff]
    simp only [Slot, object.injEq, reduceCtorEq, false_and, exists_false, or_false]
    constructor
    · rintro ⟨⟨_, a, rfl⟩, ⟨_, b, rfl⟩, w, c, d⟩; exact ⟨l, w, rfl, a, b, c, d⟩
    · rintro ⟨_, w, rfl, a, b, c, d⟩; exact ⟨⟨_, a, rfl⟩, ⟨_, b, rfl⟩, w, c, d⟩
  | array l =>
    match l with
    | [a, b, c] =>
      simp only [asEntry, reduceCtorEq, false_and, exists_false, false_or, array.injEq, List.cons.injEq, and_true]
      rw [entryEnd_iff, asString_iff, asString_iff, asStrings_iff]
      constructor
      · rintro ⟨h1, h2, h3⟩; exact ⟨c, ⟨h1, h2, rfl⟩, h3⟩
      · rintro ⟨w, ⟨h1, h2, rfl⟩, h3⟩; exact ⟨h1, h2, h3⟩
    | [] => simp [asEntry]
    | [_] => simp [asEntry]
    | [_, _] => simp [asEntry]
    | _ :: _ :: _ :: _ :: _ => simp [asEntry]
  | null => simp [asEntry]
  | bool b => simp [asEntry]
  | number b => simp [asEntry]
  | string b => simp [asEntry]

theorem mapM_asEntry (l : List Json) (es : List Entry) : l.mapM asEntry = some es ↔ AreEntries l es := by
  induction l generalizing es with
  | nil =>
    rw [List.mapM_nil]
    constructor
    · intro h; cases h; exact .nil
    · intro h; cases h; rfl
  | cons v l ih =>
    rw [List.mapM_cons]
    constructor
    · intro h
      cases hv : v.asEntry with
      | none => rw [hv] at h; cases h
      | some x =>
        rw [hv] at h
        cases hl : l.mapM asEntry with
        | none => rw [hl] at h; cases h
        | some xs =>
          rw [hl] at h
          cases h
          exact .cons ((asEntry_iff v x).mp hv) ((ih xs).mp hl)
    · intro h
      cases h with
      | cons h1 h2 =>
        rw [(asEntry_iff v _).mpr h1, (ih _).mpr h2]
        rfl

theorem asEntries_iff (v : Json) (es : List Entry) : v.asEntries = some es ↔ IsEntries v es := by
  unfold IsEntries
  cases v with
  | array l => simp [asEntries, mapM_asEntry]
  | _ => simp [asEntries]

/-- `x` is the last value of the key. -/
def Last (l : List (Str × Json)) (k x : Str) : Prop := ∃ pre post, l = pre ++ (k, .string x) :: post ∧ ∀ p ∈ post, p.1 ≠ k

theorem last_cons {l : List (Str × Json)} {k k' x : Str} {v : Json} :
    Last ((k', v) :: l) k x ↔ Last l k x ∨ (k' = k ∧ v = .string x ∧ ∀ p ∈ l, p.1 ≠ k) := by
  constructor
  · rintro ⟨pre, post, e, h⟩
    cases pre with
    | nil => injection e with e1 e2; cases e1; subst e2; exact .inr ⟨rfl, rfl, h⟩
    | cons a pre => injection e with e1 e2; exact .inl ⟨pre, post, e2, h⟩
  · rintro (⟨pre, post, e, h⟩ | ⟨rfl, rfl, h⟩)
    · exact ⟨_ :: pre, post, by rw [e]; rfl, h⟩
    · exact ⟨[], l, rfl, h⟩

theorem varsLoop_ok {l : List (Str × Json)} {m out : List (Str × Str)} (h : varsLoop l m = some out) :
    (∀ p ∈ l, ∃ s, p.2 = .string s) ∧ ∀ k x, out.lookup k = some x ↔ Last l k x ∨ ((∀ p ∈ l, p.1 ≠ k) ∧ m.lookup k = some x) := by
  induction l generalizing m with
  | nil =>
    cases h
    refine ⟨by simp, fun k x => ?_⟩
    simp [Last]
  | cons p l ih =>
    obtain ⟨k', v⟩ := p
    rw [varsLoop] at h
    split at h
    · rename_i s hs
      have hs := (asString_iff v s).mp hs
      subst hs
      obtain ⟨a, b⟩ := ih h
      refine ⟨fun p hp => (List.mem_cons.mp hp).elim (fun e => ⟨s, by rw [e]⟩) (a p), fun k x => ?_⟩
      rw [b, last_cons, lookup_insertVar]
      simp only [List.mem_cons, forall_eq_or_imp, string.injEq]
      by_cases hk : k = k'
      · subst hk
        simp only [if_true, ne_eq, not_true, false_and, or_false, true_and]
        simp only [Option.some.injEq]
        constructor
        · exact Or.imp id fun ⟨h1, h2⟩ => ⟨h2, h1⟩
        · exact Or.imp id fun ⟨h1, h2⟩ => ⟨h2, h1⟩
      · rw [if_neg hk]
        have hk' : ¬ k' = k := fun e => hk e.symm
        simp [hk']
    · cases h

theorem varsLoop_some {l : List (Str × Json)} (h : ∀ p ∈ l, ∃ s, p.2 = .string s) (m : List (Str × Str)) : ∃ out, varsLoop l m = some out := by
  induction l generalizing m with
  | nil => exact ⟨m, rfl⟩
  | cons p l ih =>
    obtain ⟨k, v⟩ := p
    obtain ⟨s, rfl⟩ := h (k, v) (by simp)
    exact ih (fun p hp => h p (by simp [hp])) _

theorem asVars_ok {v : Json} {m : List (Str × Str)} (h : v.asVars = some m) : IsVars v m := by
  cases v with
  | object l =>
    obtain ⟨a, b⟩ := varsLoop_ok h
    refine ⟨l, rfl, a, fun k x => (b k x).trans ?_⟩
    simp [Last]
  | _ => cases h

theorem isVars_lookup {v : Json} {m m' : List (Str × Str)} (h : IsVars v m) (h' : IsVars v m') (k : Str) : m.lookup k = m'.lookup k := by
  obtain ⟨l, rfl, _, b⟩ := h
  obtain ⟨l', e, _, b'⟩ := h'
  cases e
  exact Option.ext fun x => (b k x).trans (b' k x).symm

theorem asVars_some {v : Json} {m : List (Str × Str)} (h : IsVars v m) : ∃ m', v.asVars = some m' ∧ ∀ k, m'.lookup k = m.lookup k := by
  obtain ⟨l, rfl, a, b⟩ := h
  obtain ⟨m', h⟩ := varsLoop_some a []
  exact ⟨m', h, isVars_lookup (asVars_ok (v := .object l) h) ⟨l, rfl, a, b⟩⟩

theorem fileEnd_iff (vs : Option (List (Str × Str))) (ms : Option (List Entry)) (m : MappingsFile) :
    fileEnd vs ms = some m ↔ vs = some m.variables ∧ ms = some m.mappings := by
  constructor
  · intro h
    unfold fileEnd at h
    split at h
    · cases h; exact ⟨rfl, rfl⟩
    · cases h
  · rintro ⟨rfl, rfl⟩; rfl

theorem fileLoop_iff (l : List (Str × Json)) (vs : Option (List (Str × Str))) (ms : Option (List Entry)) (m : MappingsFile) :
    fileLoop l vs ms = some m ↔ Slot l (str% "variables") (fun v x => v.asVars = some x) vs m.variables ∧
      Slot l (str% "mappings") (fun v x => v.asEntries = some x) ms m.mappings := by
  induction l generalizing vs ms with
  | nil => rw [fileLoop, fileEnd_iff, slot_nil, slot_nil]
  | cons p l ih =>
    obtain ⟨k, v⟩ := p
    rw [fileLoop]
    by_cases h1 : k = str% "variables"
    · subst h1
      rw [if_pos rfl, slot_skip (key := str% "mappings") (by decide)]
      exact slot_once (fun _ _ => Iff.rfl) fun x => ih (some x) ms
    · rw [if_neg h1, slot_skip h1]
      by_cases h2 : k = str% "mappings"
      · subst h2
        rw [if_pos rfl, and_comm]
        exact slot_once (fun _ _ => Iff.rfl) fun x => (ih vs (some x)).trans and_comm
      · rw [if_neg h2, slot_skip h2, ih]

theorem asFile_iff (v : Json) (m : MappingsFile) : v.asFile = some m ↔
    (∃ l a b, v = .object l ∧ OneEntry l (str% "variables") a ∧ OneEntry l (str% "mappings") b ∧ a.asVars = some m.variables ∧
      b.asEntries = some m.mappings) ∨ ∃ a b, v = .array [a, b] ∧ a.asVars = some m.variables ∧ b.asEntries = some m.mappings := by
  cases v with
  | object l =>
    rw [asFile, fileLoop_iff]
    simp only [Slot, object.injEq, reduceCtorEq, false_and, exists_false, or_false]
    constructor
    · rintro ⟨⟨a, h1, h2⟩, b, h3, h4⟩; exact ⟨l, a, b, rfl, h1, h3, h2, h4⟩
    · rintro ⟨_, a, b, rfl, h1, h3, h2, h4⟩; exact ⟨⟨a, h1, h2⟩, b, h3, h4⟩
  | array l =>
    match l with
    | [a, b] =>
      simp only [asFile, reduceCtorEq, false_and, exists_false, false_or, array.injEq, List.cons.injEq, and_true]
      rw [fileEnd_iff]
      constructor
      · rintro ⟨h1, h2⟩; exact ⟨a, b, ⟨rfl, rfl⟩, h1, h2⟩
      · rintro ⟨_, _, ⟨rfl, rfl⟩, h1, h2⟩; exact ⟨h1, h2⟩
    | [] => simp [asFile]
    | [_] => simp [asFile]
    | _ :: _ :: _ :: _ => simp [asFile]
  | null => simp [asFile]
  | bool b => simp [asFile]
  | number b => simp [asFile]
  | string b => simp [asFile]

end Json

/-- **C103, the mapping file.** A file is accepted exactly when it is JSON text for the two tables: an object with exactly one entry for each
of them, or an array of both; other entries are ignored. What is read is what the text describes. -/
theorem C103_file (parse : List Nat → Option Json) (data : List Nat) :
    (∀ m, fromSlice parse data = some m → ∃ v, parse data = some v ∧ IsFile v m) ∧
    ∀ v m, parse data = some v → IsFile v m → ∃ m', fromSlice parse data = some m' ∧ m'.mappings = m.mappings ∧
      ∀ k, m'.variables.lookup k = m.variables.lookup k := by
  unfold fromSlice
  constructor
  · intro m h
    cases hp : parse data with
    | none => rw [hp] at h; cases h
    | some v =>
      rw [hp] at h
      refine ⟨v, rfl, ?_⟩
      rcases (Json.asFile_iff v m).mp h with ⟨l, a, b, h1, h2, h3, h4, h5⟩ | ⟨a, b, h1, h4, h5⟩
      · exact .inl ⟨l, a, b, h1, h2, h3, Json.asVars_ok h4, (Json.asEntries_iff b _).mp h5⟩
      · exact .inr ⟨a, b, h1, Json.asVars_ok h4, (Json.asEntries_iff b _).mp h5⟩
  · intro v m hp h
    rw [hp]
    rcases h with ⟨l, a, b, h1, h2, h3, h4, h5⟩ | ⟨a, b, h1, h4, h5⟩
    · obtain ⟨vars, e, hv⟩ := Json.asVars_some h4
      exact ⟨⟨vars, m.mappings⟩, (Json.asFile_iff v _).mpr (.inl ⟨l, a, b, h1, h2, h3, e, (Json.asEntries_iff b _).mpr h5⟩), rfl, hv⟩
    · obtain ⟨vars, e, hv⟩ := Json.asVars_some h4
      exact ⟨⟨vars, m.mappings⟩, (Json.asFile_iff v _).mpr (.inr ⟨a, b, h1, e, (Json.asEntries_iff b _).mpr h5⟩), rfl, hv⟩

theorem means_congr {vars vars' : List (Str × Str)} (h : ∀ k, vars.lookup k = vars'.lookup k) {a : Str} {k : ActionKind} (hm : Means vars a k) :
    Means vars' a k := by
  cases hm with
  | upper => exact .upper
  | lower => exact .lower
  | var h1 h2 h3 => exact .var h1 h2 (by rw [← h]; exact h3)
  | group h1 h2 h3 h4 => exact .group h1 h2 (by rw [← h]; exact h3) h4

theorem Rule.valid_congr {env : MapEnv} {source dest : Str} {files files' : List Str} {vars vars' : List (Str × Str)}
    (h : ∀ k, vars.lookup k = vars'.lookup k) (hv : Rule.Valid env ⟨source, dest, files, vars⟩) : Rule.Valid env ⟨source, dest, files', vars'⟩ := by
  obtain ⟨hr, t, tail, hc, hm⟩ := hv
  exact ⟨hr, t, tail, hc, fun p hp => means_congr h (hm p hp)⟩

theorem valid_iff (env : MapEnv) (rule : Rule) : rule.Valid env ↔ ∃ g, Generator.new env rule.source rule.dest rule.vars rule.files = .ok g := by
  obtain ⟨⟨pairs, tail, hc⟩, huniq⟩ := C33_cut rule.dest
  constructor
  · rintro ⟨⟨re, hr⟩, t, tail', hc', hm⟩
    refine ((C33_rejects env rule.vars rule.files hr hc').1).mpr ?_
    intro p hp
    obtain ⟨x, hx, rfl⟩ := List.mem_map.mp hp
    exact ⟨_, hm x hx⟩
  · rintro ⟨g, hg⟩
    cases hr : env.regex rule.source with
    | none =>
      obtain ⟨m, hm⟩ := C33_bad_regex env rule.dest rule.vars rule.files hr
      rw [hm] at hg
      cases hg
    | some re =>
      have := ((C33_rejects env rule.vars rule.files hr hc).1).mp ⟨g, hg⟩
      have : ∃ t : List (Str × Str × ActionKind), t.map (fun p => (p.1, p.2.1)) = pairs ∧ ∀ p ∈ t, Means rule.vars p.2.1 p.2.2 := by
        clear hc hg
        induction pairs with
        | nil => exact ⟨[], rfl, by simp⟩
        | cons p pairs ih =>
          obtain ⟨t, ht, hm⟩ := ih fun q hq => this q (by simp [hq])
          obtain ⟨k, hk⟩ := this p (by simp)
          refine ⟨(p.1, p.2, k) :: t, by simp [ht], ?_⟩
          intro q hq
          rcases List.mem_cons.mp hq with rfl | hq
          · exact hk
          · exact hm q hq
      obtain ⟨t, rfl, hm⟩ := this
      exact ⟨⟨re, hr⟩, t, tail, hc, hm⟩

theorem entriesLoop_total {env : MapEnv} {vars : List (Str × Str)} {es : List Entry}
    (h : ∀ e ∈ es, ∃ g, Generator.new env e.source e.destination vars e.files = .ok g) (out noFiles : List Generator) :
    ∃ r, entriesLoop env vars es out noFiles = .ok r := by
  induction es generalizing out noFiles with
  | nil => exact ⟨_, rfl⟩
  | cons e es ih =>
    obtain ⟨g, hg⟩ := h e (by simp)
    rw [entriesLoop, hg, Res.bind_ok]
    split
    · exact ih (fun e he => h e (by simp [he])) _ _
    · exact ih (fun e he => h e (by simp [he])) _ _

theorem pairsLoop_total {env : MapEnv} {vars : List (Str × Str)} {ss ds : List Str}
    (h : ∀ p ∈ ss.zip ds, ∃ g, Generator.new env p.1 p.2 vars [] = .ok g) (out : List Generator) :
    ∃ r, pairsLoop env vars ss ds out = .ok r := by
  induction ss generalizing ds out with
  | nil => exact ⟨_, rfl⟩
  | cons s ss ih =>
    cases ds with
    | nil => exact ⟨_, rfl⟩
    | cons d ds =>
      obtain ⟨g, hg⟩ := h (s, d) (by simp)
      rw [pairsLoop, hg, Res.bind_ok]
      exact ih (fun p hp => h p (by simp [hp])) _

/-- **C103, the configuration.** Making the mappings succeeds exactly for the configurations that are in order. -/
theorem C103_accepted (env : MapEnv) (ho : ∀ l, (env.order l).Perm l) (variables' sources destinations : Option (List Str)) (file : Option Str) :
    (∃ o, new env variables' sources destinations file = .ok o) ↔ Accepted env variables' sources destinations file := by
  constructor
  · rintro ⟨o, h⟩
    obtain ⟨rules, hc, hg⟩ := new_configured ho h
    refine ⟨?_, ?_, rules, hc, ?_⟩
    · cases variables' with
      | none => simp
      | some vs =>
        obtain ⟨cli, hv, _⟩ := Res.ok_of_bind h
        exact ((C36_variables vs).1).mp ⟨cli, hv⟩
    · obtain ⟨cli, _, h⟩ := Res.ok_of_bind h
      obtain ⟨m, _, h⟩ := Res.ok_of_bind h
      obtain ⟨m', h, _⟩ := Res.ok_of_bind h
      unfold getMappings at h
      cases sources <;> cases destinations <;> simp at h ⊢
      all_goals split at h <;> cases h
    · intro r hr
      refine (valid_iff env r).mpr ?_
      have : Generator.new env r.source r.dest r.vars r.files ∈ (o.getD []).map Res.ok := by
        rw [← hg]
        exact List.mem_map.mpr ⟨r, hr, rfl⟩
      obtain ⟨g, _, e⟩ := List.mem_map.mp this
      exact ⟨g, e.symm⟩
  · rintro ⟨hv, hsd, rules, ⟨cli, a, b, hcli, rfl, hlen, hn, hf⟩, hval⟩
    have hvars : ∃ c, getVariables variables' = .ok c ∧ (c.map (·.1)).Nodup ∧ ∀ k, c.lookup k = cli.lookup k := by
      cases variables' with
      | none =>
        refine ⟨[], rfl, List.nodup_nil, fun k => ?_⟩
        refine Option.ext fun x => ?_
        rw [hcli]
        simp [LastVar]
      | some vs =>
        obtain ⟨c, hc⟩ := ((C36_variables vs).1).mpr hv
        exact ⟨c, hc, (variablesLoop_ok hc List.nodup_nil).1, fun k => Option.ext fun x => ((C36_variables vs).2 c hc k x).trans (hcli k x).symm⟩
    obtain ⟨c, hc, hnd, hlook⟩ := hvars
    rw [new, hc, Res.bind_ok]
    have hfile : ∃ m, getMappingsFromFile env c file [] = .ok m := by
      cases file with
      | none => exact ⟨_, rfl⟩
      | some f =>
        obtain ⟨data, m, vars, h1, h2, h3, rfl, rfl⟩ := hf f rfl
        have hl : ∀ k, ((env.order c).foldl (fun acc p => insertVar acc p.1 p.2) m.variables).lookup k = vars.lookup k := by
          intro k
          rw [foldl_insertVar (((ho c).map _).nodup_iff.mpr hnd), lookup_perm hnd (ho c), h3, hlook]
        have he : ∀ e ∈ m.mappings, ∃ g, Generator.new env e.source e.destination
            ((env.order c).foldl (fun acc p => insertVar acc p.1 p.2) m.variables) e.files = .ok g := by
          intro e he
          refine (valid_iff env ⟨e.source, e.destination, e.files, _⟩).mp ?_
          by_cases hfe : e.files = []
          · refine Rule.valid_congr (files := []) (fun k => (hl k).symm) (hval _ ?_)
            simp only [List.mem_append, List.mem_map, List.mem_filter]
            exact .inl (.inr ⟨e, ⟨he, by simp [hfe]⟩, rfl⟩)
          · refine Rule.valid_congr (files := e.files) (fun k => (hl k).symm) (hval _ ?_)
            simp only [List.mem_append, List.mem_map, List.mem_filter]
            exact .inl (.inl ⟨e, ⟨he, by simp [hfe]⟩, rfl⟩)
        obtain ⟨r, hr⟩ := entriesLoop_total he [] []
        refine ⟨r.1 ++ r.2, ?_⟩
        simp only [getMappingsFromFile, MappingsFile.new, h1, Res.bind_ok, h2, hr]
    obtain ⟨m, hm⟩ := hfile
    rw [hm, Res.bind_ok]
    have hpairs : ∃ r, getMappings env c sources destinations m = .ok r := by
      cases sources with
      | none =>
        cases destinations with
        | none => exact ⟨_, rfl⟩
        | some ds => simp at hsd
      | some ss =>
        cases destinations with
        | none => simp at hsd
        | some ds =>
          have hz : ∀ p ∈ ss.zip ds, ∃ g, Generator.new env p.1 p.2 c [] = .ok g := by
            intro p hp
            refine (valid_iff env ⟨p.1, p.2, [], c⟩).mp ?_
            refine Rule.valid_congr (files := []) (fun k => (hlook k).symm) (hval _ ?_)
            simp only [List.mem_append, List.mem_map]
            exact .inr ⟨p, hp, rfl⟩
          obtain ⟨r, hr⟩ := pairsLoop_total hz m
          refine ⟨r, ?_⟩
          have : ss.length = ds.length := hlen
          simp [getMappings, this, hr]
    obtain ⟨r, hr⟩ := hpairs
    rw [hr, Res.bind_ok]
    exact ⟨_, rfl⟩

open UnitTests

/-- test_data/mapping.json. -/
def testJson : Json := .object [(str% "variables", .object [(str% "revision", .string (str% "6639deb894172375b05d6791f5f8c7d53ca79723"))]), 
  (str% "mappings", .array [
    .object [(str% "source", .string (str% "./test_data/mapping/(.*)")),
      (str% "destination", .string (str% "s3:gecko-generated-sources:{digest}/{1}")),
      (str% "files", .array [.string (str% "./test_data/mapping/aaa.cpp"),
        .string (str% "./test_data/mapping/bbb.cpp"), .string (str% "./test_data/mapping/ccc.cpp")])], 
    .object [(str% "source", .string (str% "/home/worker/(.*)")),
      (str% "destination", .string (str% "hg:hg.mozilla.org/mozilla-central:{1}:{revision}")),
      (str% "files", .array [])], 
    .object [(str% "source", .string (str% "/rustc/([a-fA-F0-9]+)/(.*)")),
      (str% "destination", .string (str% "git:github.com/rust-lang/rust:{2}:{1}")),
      (str% "files", .array [])], 
    .object [(str% "source", .string (str% "/cargo/registry/src/[^/]+/([^-]+)-([^/]+)/(.*)")),
      (str% "destination", .string (str% "https://doc.rs/{2}/{1}/{3}.html")),
      (str% "files", .array [])]])]

/-- The file of the tests describes the mapping of the tests. -/
example : fromSlice (fun _ => some testJson) [] = some testMapping := rfl

/-- A mapping is also read from an array, and unknown keys are skipped; the last value of a variable counts. -/
example : fromSlice (fun _ => some (.object [(str% "version", .number (str% "2")), (str% "mappings", .array [.array [.string (str% "a"),
      .string (str% "b"), .array []]]), (str% "variables", .object [(str% "x", .string (str% "1")), (str% "x", .string (str% "2"))])])) [] =
    some ⟨[(str% "x", str% "2")], [⟨str% "a", str% "b", []⟩]⟩ := rfl

/-- Without `files` a mapping is rejected, and so is a file that gives the variables twice. -/
example : fromSlice (fun _ => some (.object [(str% "variables", .object []), (str% "mappings", .array [.object [(str% "source", .string (str% "a")),
      (str% "destination", .string (str% "b"))]])])) [] = none := rfl
example : fromSlice (fun _ => some (.object [(str% "variables", .object []), (str% "mappings", .array []), (str% "variables", .object [])])) [] = none :=
  rfl

/-- The configuration of the tests is in order. -/
example : Accepted testEnv none none none (some (str% "./test_data/mapping.json")) := by
  refine (C103_accepted testEnv (fun _ => .refl _) none none none _).mp ?_
  have h : (match new testEnv none none none (some (str% "./test_data/mapping.json")) with | .ok _ => true | _ => false) = true := by decide +kernel
  revert h
  cases new testEnv none none none (some (str% "./test_data/mapping.json")) with
  | ok o => exact fun _ => ⟨o, rfl⟩
  | err m => exact fun h => by cases h
  | panic => exact fun h => by cases h

/-- A source without a destination is not in order, nor is a destination with an unknown variable. -/
example : ¬ Accepted testEnv none (some [str% "a"]) none none := fun h => absurd h.2.1 (by decide)
example : ¬ Rule.Valid testEnv ⟨str% "test_data/linux/(.*)", str% "{rev}", [], []⟩ := by
  rw [valid_iff]
  rintro ⟨g, h⟩
  have h' : (match Generator.new testEnv (str% "test_data/linux/(.*)") (str% "{rev}") [] [] with | .ok _ => true | _ => false) = false := by
    decide +kernel
  rw [h] at h'
  cases h'

end Mapping
end DumpSyms
