import Verif.Proof.Mapping
import Verif.Proof.Merge
/-!
# C33 to C38: path mappings
-/
namespace DumpSyms
namespace Mapping

/-! ### Sample surroundings for the examples -/

/-- The regular expression `^/foo/(.*)$` with a second group that never takes part, whatever the text asked for (the text
`(` is not a regular expression). -/
def sampleEnv : MapEnv where
  regex := fun re => if re = str% "(" then none else some fun s =>
    if (str% "/foo/").isPrefixOf s then some fun n => if n = 0 then some s else if n = 1 then some (s.drop 5) else none
    else none
  read := fun f => if f = str% "/foo/a.c" then .ok [1, 2] else if f = str% "map.json" then .ok [0] else .err (str% "gone")
  json := fun _ => some { variables := [(str% "rev", str% "file"), (str% "x", str% "y")]
                          mappings := [⟨str% "a", str% "A{1}{rev}", []⟩, ⟨str% "a", str% "B{x}", [str% "/foo/a.c"]⟩] }
  sha512 := fun d => d.map (· * 171 % 256)
  windows := false
  order := List.reverse

def sampleVars : List (Str × Str) := [(str% "rev", str% "12é")]

/-! ### C33: parsing a destination -/

/-- A destination is cut into literals and actions in exactly one way. -/
theorem C33_cut (dest : Str) :
    (∃ pairs tail, Cut dest pairs tail) ∧
      ∀ ps qs t t', Cut dest ps t → Cut dest qs t' → ps = qs ∧ t = t' :=
  ⟨cut_exists dest, fun _ _ _ _ h h' => cut_unique h h'⟩

/-- When every action of the destination means something, parsing succeeds; the chunks of the actions are the literals, in
order, and their kinds are the meanings of the actions. -/
theorem C33_parse (env : MapEnv) {re dest tail : Str} {r : Regex} {vars : List (Str × Str)} (files : List Str)
    (t : List (Str × Str × ActionKind)) (hr : env.regex re = some r)
    (hc : Cut dest (t.map fun p => (p.1, p.2.1)) tail) (hm : ∀ p ∈ t, Means vars p.2.1 p.2.2) :
    ∃ acts, Generator.new env re dest vars files =
        .ok { re := r, actions := acts, mapping := Utf8.encode dest, files := files } ∧
      acts.map (fun a => (slice (Utf8.encode dest) a.start a.stop, a.kind)) =
        (t.map fun p => (.ok (Utf8.encode p.1), p.2.2)) ++
          if tail = [] then [] else [(.ok (Utf8.encode tail), .none)] :=
  new_ok env files t hr hc hm

/-- Parsing fails exactly when some action means nothing (the expression being valid); the first such action is named. -/
theorem C33_rejects (env : MapEnv) {re dest tail : Str} {r : Regex} (vars : List (Str × Str)) (files : List Str)
    {pairs : List (Str × Str)} (hr : env.regex re = some r) (hc : Cut dest pairs tail) :
    ((∃ g, Generator.new env re dest vars files = .ok g) ↔ ∀ p ∈ pairs, ∃ k, Means vars p.2 k) ∧
    ∀ pre l bad rest, pairs = pre ++ (l, bad) :: rest → (∀ p ∈ pre, ∃ k, Means vars p.2 k) → (∀ k, ¬ Means vars bad k) →
      Generator.new env re dest vars files = .err (str% "Invalid action " ++ bad ++ str% " in mapping string") := by
  have hbad : ∀ pre l bad rest, pairs = pre ++ (l, bad) :: rest → (∀ p ∈ pre, ∃ k, Means vars p.2 k) →
      (∀ k, ¬ Means vars bad k) →
      Generator.new env re dest vars files = .err (str% "Invalid action " ++ bad ++ str% " in mapping string") := by
    intro pre l bad rest e hp hb
    rcases pieces_or_bad vars pre with ⟨t, rfl, ht⟩ | ⟨t, l', bad', rest', rfl, _, hb'⟩
    · subst e
      exact new_err env files t rest hr hc ht hb
    · obtain ⟨k, hk⟩ := hp (l', bad') (by simp)
      exact absurd hk (hb' k)
  refine ⟨?_, hbad⟩
  rcases pieces_or_bad vars pairs with ⟨t, rfl, ht⟩ | ⟨t, l, bad, rest, rfl, ht, hb⟩
  · obtain ⟨acts, h, _⟩ := new_ok env files t hr hc ht
    refine ⟨fun _ p hp => ?_, fun _ => ⟨_, h⟩⟩
    obtain ⟨q, hq, rfl⟩ := List.mem_map.mp hp
    exact ⟨_, ht q hq⟩
  · have h := hbad _ l bad rest rfl
      (fun p hp => by obtain ⟨q, hq, rfl⟩ := List.mem_map.mp hp; exact ⟨_, ht q hq⟩) hb
    constructor
    · rintro ⟨g, hg⟩; rw [h] at hg; cases hg
    · intro hall
      obtain ⟨k, hk⟩ := hall (l, bad) (by simp)
      exact absurd hk (hb k)

/-- An invalid regular expression is rejected. -/
theorem C33_bad_regex (env : MapEnv) {re : Str} (dest : Str) (vars : List (Str × Str)) (files : List Str)
    (hr : env.regex re = none) : ∃ m, Generator.new env re dest vars files = .err m :=
  ⟨_, by simp [Generator.new, hr]; rfl⟩

/-- Stray braces are literal text: `}é{{rev}/}{` is the literal `}é{`, the action `rev` and the literal `/}{`. -/
example : Cut (str% "}é{{rev}/}{") [(str% "}é{", str% "rev")] (str% "/}{") := by
  refine ⟨rfl, ?_, by decide, ?_⟩ <;> simp [noPair_cons, NoPair.nil]

example : (match Generator.new sampleEnv (str% "x") (str% "}é{{rev}/}{") sampleVars [] with
    | .ok g => some (g.actions.map fun a => (a.kind, a.start, a.stop)) | _ => none) =
    some [(.mappingVar (str% "12é"), 0, 4), (.none, 9, 12)] := by decide

example : (match Generator.new sampleEnv (str% "x") (str% "a{1}b{zz}") sampleVars [] with
    | .err m => m | _ => []) = str% "Invalid action zz in mapping string" := by decide

/-! ### C34: expansion -/

/-- A generator built from a destination whose actions mean something, applied to a path it accepts, gives the destination
with each action replaced by its value. -/
theorem C34_expand (env : MapEnv) {re dest tail file fileStr : Str} {r : Regex} {vars : List (Str × Str)} {files : List Str}
    {caps : Captures} {g : Generator} (t : List (Str × Str × ActionKind × Str)) (hr : env.regex re = some r)
    (hc : Cut dest (t.map fun p => (p.1, p.2.1)) tail) (hm : ∀ p ∈ t, Means vars p.2.1 p.2.2.1)
    (hv : ∀ p ∈ t, Value env caps file p.2.2.1 p.2.2.2)
    (hg : Generator.new env re dest vars files = .ok g) (hf : files = [] ∨ fileStr ∈ files)
    (hcaps : r fileStr = some caps) :
    g.apply env file fileStr = .ok (some ((t.flatMap fun p => p.1 ++ p.2.2.2) ++ tail)) := by
  obtain ⟨acts, h1, h2⟩ := new_ok env files (t.map fun p => (p.1, p.2.1, p.2.2.1)) (vars := vars) hr
    (by rw [List.map_map]; exact hc)
    (by intro p hp; obtain ⟨q, hq, rfl⟩ := List.mem_map.mp hp; exact hm q hq)
  rw [h1] at hg
  cases hg
  rw [Generator.apply, if_pos hf]
  simp only [hcaps]
  rw [applyActions_eq, h2, List.map_map]
  have := applyPieces_values env caps file (t.map fun p => (p.1, p.2.2.1, p.2.2.2))
    (if tail = [] then [] else [(.ok (Utf8.encode tail), .none)]) [] (by
      intro p hp; obtain ⟨q, hq, rfl⟩ := List.mem_map.mp hp; exact hv q hq)
  rw [List.map_map] at this
  rw [show ([] : List Nat) = Utf8.encode [] from rfl]
  simp only [Function.comp_def] at this ⊢
  rw [this, List.nil_append, List.flatMap_map]
  by_cases ht : tail = []
  · subst ht
    simp [applyPieces, Utf8.decode_encode]
  · rw [if_neg ht]
    simp only [applyPieces, Res.bind_ok, actionText, List.append_nil, ← Utf8.encode_append, Utf8.decode_encode]

/-- The part of the above up to the first action without a value. -/
theorem applyPieces_until (env : MapEnv) {re dest tail file l act : Str} {r : Regex} {vars : List (Str × Str)}
    {files : List Str} {caps : Captures} {g : Generator} {k : ActionKind} (t : List (Str × Str × ActionKind × Str))
    (rest : List (Str × Str × ActionKind)) (hr : env.regex re = some r)
    (hc : Cut dest ((t.map fun p => (p.1, p.2.1)) ++ (l, act) :: rest.map fun p => (p.1, p.2.1)) tail)
    (hm : ∀ p ∈ t, Means vars p.2.1 p.2.2.1) (hk : Means vars act k) (hrest : ∀ p ∈ rest, Means vars p.2.1 p.2.2)
    (hv : ∀ p ∈ t, Value env caps file p.2.2.1 p.2.2.2)
    (hg : Generator.new env re dest vars files = .ok g) :
    g.re = r ∧ g.files = files ∧ ∃ more buf, applyActions env g.mapping caps file g.actions [] =
      applyPieces env caps file ((.ok (Utf8.encode l), k) :: more) buf := by
  obtain ⟨acts, h1, h2⟩ := new_ok env files ((t.map fun p => (p.1, p.2.1, p.2.2.1)) ++ (l, act, k) :: rest) (vars := vars) hr
    (by simpa [Function.comp_def] using hc)
    (by
      intro p hp
      rcases List.mem_append.mp hp with hp | hp
      · obtain ⟨q, hq, rfl⟩ := List.mem_map.mp hp; exact hm q hq
      · rcases List.mem_cons.mp hp with rfl | hp
        · exact hk
        · exact hrest p hp)
  rw [h1] at hg
  cases hg
  refine ⟨rfl, rfl, ?_⟩
  rw [applyActions_eq, h2]
  have := applyPieces_values env caps file (t.map fun p => (p.1, p.2.2.1, p.2.2.2))
    ((.ok (Utf8.encode l), k) :: ((rest.map fun p => (.ok (Utf8.encode p.1), p.2.2)) ++
      if tail = [] then [] else [(.ok (Utf8.encode tail), .none)])) [] (by
      intro p hp; obtain ⟨q, hq, rfl⟩ := List.mem_map.mp hp; exact hv q hq)
  refine ⟨_, _, Eq.trans ?_ this⟩
  simp [Function.comp_def]
  rfl

/-- A group that did not take part: no answer. -/
theorem C34_missing_group (env : MapEnv) {re dest tail file fileStr l act : Str} {r : Regex} {vars : List (Str × Str)}
    {files : List Str} {caps : Captures} {g : Generator} {n : Nat} (t : List (Str × Str × ActionKind × Str))
    (rest : List (Str × Str × ActionKind)) (hr : env.regex re = some r)
    (hc : Cut dest ((t.map fun p => (p.1, p.2.1)) ++ (l, act) :: rest.map fun p => (p.1, p.2.1)) tail)
    (hm : ∀ p ∈ t, Means vars p.2.1 p.2.2.1) (hk : Means vars act (.group n)) (hrest : ∀ p ∈ rest, Means vars p.2.1 p.2.2)
    (hv : ∀ p ∈ t, Value env caps file p.2.2.1 p.2.2.2) (hn : caps n = none)
    (hg : Generator.new env re dest vars files = .ok g) (hcaps : r fileStr = some caps) :
    g.apply env file fileStr = .ok none := by
  obtain ⟨rfl, _, more, buf, h⟩ := applyPieces_until env t rest hr hc hm hk hrest hv hg
  rw [Generator.apply]
  split
  · rw [hcaps]
    simp only
    rw [h]
    simp [applyPieces, actionText, hn]
  · rfl

/-- A digest of a file that cannot be read: an error. -/
theorem C34_unreadable (env : MapEnv) {re dest tail file fileStr l act m : Str} {r : Regex} {vars : List (Str × Str)}
    {files : List Str} {caps : Captures} {g : Generator} {u : Bool} (t : List (Str × Str × ActionKind × Str))
    (rest : List (Str × Str × ActionKind)) (hr : env.regex re = some r)
    (hc : Cut dest ((t.map fun p => (p.1, p.2.1)) ++ (l, act) :: rest.map fun p => (p.1, p.2.1)) tail)
    (hm : ∀ p ∈ t, Means vars p.2.1 p.2.2.1) (hk : Means vars act (.digest u)) (hrest : ∀ p ∈ rest, Means vars p.2.1 p.2.2)
    (hv : ∀ p ∈ t, Value env caps file p.2.2.1 p.2.2.2) (hn : env.read file = .err m)
    (hg : Generator.new env re dest vars files = .ok g) (hf : files = [] ∨ fileStr ∈ files)
    (hcaps : r fileStr = some caps) :
    g.apply env file fileStr = .err m := by
  obtain ⟨rfl, hfs, more, buf, h⟩ := applyPieces_until env t rest hr hc hm hk hrest hv hg
  rw [Generator.apply, hfs, if_pos hf, hcaps]
  simp only
  rw [h]
  simp [applyPieces, actionText, getDigest, hn]

/-- Not in the file list, or not matched: no answer. -/
theorem C34_no_match (env : MapEnv) {re dest file fileStr : Str} {r : Regex} {vars : List (Str × Str)} {files : List Str}
    {g : Generator} (hr : env.regex re = some r) (hg : Generator.new env re dest vars files = .ok g)
    (h : (files ≠ [] ∧ fileStr ∉ files) ∨ r fileStr = none) : g.apply env file fileStr = .ok none := by
  have hre : g.re = r ∧ g.files = files := by
    rw [Generator.new, hr] at hg
    simp only at hg
    cases hs : scan vars (Utf8.encode dest) 0 (Utf8.encode dest)
        { chunkStart := 0, chunkEnd := 0, opened := false, actions := [] } with
    | ok s => rw [hs] at hg; cases hg; exact ⟨rfl, rfl⟩
    | err _ => rw [hs] at hg; cases hg
    | panic => rw [hs] at hg; cases hg
  rw [Generator.apply, hre.1, hre.2]
  rcases h with ⟨h1, h2⟩ | h
  · rw [if_neg (by simp [h1, h2])]
  · split
    · rw [h]
    · rfl

def applyOf (dest : Str) (files : List Str) (file : Str) : Res (Option Str) := do
  let g ← Generator.new sampleEnv (str% "x") dest sampleVars files
  g.apply sampleEnv file file

example : applyOf (str% "h{{rev}/{digest}-{DIGEST}/{1}}é") [] (str% "/foo/a.c") =
    .ok (some (str% "h{12é/ab56-AB56/a.c}é")) := by decide +kernel
example : applyOf (str% "{1}{2}") [] (str% "/foo/a.c") = .ok none := by decide
example : applyOf (str% "{1}") [] (str% "/bar/a.c") = .ok none := by decide
example : applyOf (str% "{1}") [str% "/foo/b.c"] (str% "/foo/a.c") = .ok none := by decide
example : applyOf (str% "{1}") [str% "/foo/b.c"] (str% "/foo/b.c") = .ok (some (str% "b.c")) := by decide
example : applyOf (str% "{1}{digest}") [] (str% "/foo/b.c") = .err (str% "gone") := by decide

/-! ### C35: no panic and no invalid UTF-8 -/

/-- Parsing a destination never panics: the bytes between two braces are always UTF-8. -/
theorem C35_parse_no_panic (env : MapEnv) (re dest : Str) (vars : List (Str × Str)) (files : List Str) :
    Generator.new env re dest vars files ≠ .panic := by
  cases hr : env.regex re with
  | none => simp [Generator.new, hr]
  | some r =>
    obtain ⟨pairs, tail, hc⟩ := cut_exists dest
    rcases pieces_or_bad vars pairs with ⟨t, rfl, ht⟩ | ⟨t, l, bad, rest, rfl, ht, hb⟩
    · obtain ⟨acts, h, _⟩ := new_ok env files t hr hc ht
      rw [h]; simp
    · rw [new_err env files t rest hr hc ht hb]; simp

theorem actionText_valid (env : MapEnv) (caps : Captures) (file : Str) (k : ActionKind) :
    actionText env caps file k = .ok none ∨ (∃ s, actionText env caps file k = .ok (some (Utf8.encode s))) ∨
      (∃ m, actionText env caps file k = .err m) ∨ env.read file = .panic := by
  cases k with
  | group n =>
    simp only [actionText]
    cases caps n with
    | none => exact .inl rfl
    | some g => exact .inr (.inl ⟨_, rfl⟩)
  | mappingVar v => exact .inr (.inl ⟨v, rfl⟩)
  | digest u =>
    simp only [actionText, getDigest]
    cases env.read file with
    | ok d => exact .inr (.inl ⟨_, rfl⟩)
    | err m => exact .inr (.inr (.inl ⟨m, rfl⟩))
    | panic => exact .inr (.inr (.inr rfl))
  | none => exact .inr (.inl ⟨[], rfl⟩)

theorem applyPieces_valid (env : MapEnv) (caps : Captures) (file : Str) (t : List (Str × ActionKind)) (buf : Str) :
    applyPieces env caps file (t.map fun p => (.ok (Utf8.encode p.1), p.2)) (Utf8.encode buf) = .ok none ∨
      (∃ s, applyPieces env caps file (t.map fun p => (.ok (Utf8.encode p.1), p.2)) (Utf8.encode buf) =
        .ok (some (Utf8.encode s))) ∨
      (∃ m, applyPieces env caps file (t.map fun p => (.ok (Utf8.encode p.1), p.2)) (Utf8.encode buf) = .err m) ∨
      env.read file = .panic := by
  induction t generalizing buf with
  | nil => exact .inr (.inl ⟨buf, rfl⟩)
  | cons p t ih =>
    simp only [List.map_cons, applyPieces, Res.bind_ok]
    rcases actionText_valid env caps file p.2 with h | ⟨s, h⟩ | ⟨m, h⟩ | h
    · rw [h]; exact .inl rfl
    · rw [h]
      simp only [Res.bind_ok, ← Utf8.encode_append]
      exact ih _
    · rw [h]; exact .inr (.inr (.inl ⟨m, rfl⟩))
    · exact .inr (.inr (.inr h))

/-- The unchecked conversion at the end of an expansion is sound (in the model it would be a panic otherwise), and no slice
is out of range: applying a generator panics only if reading the file (for a digest) panics. -/
theorem C35_apply_no_panic (env : MapEnv) {re dest : Str} {vars : List (Str × Str)} {files : List Str} {g : Generator}
    (hg : Generator.new env re dest vars files = .ok g) (file fileStr : Str) (hp : env.read file ≠ .panic) :
    g.apply env file fileStr ≠ .panic := by
  cases hr : env.regex re with
  | none => simp [Generator.new, hr] at hg
  | some r =>
    obtain ⟨pairs, tail, hc⟩ := cut_exists dest
    rcases pieces_or_bad vars pairs with ⟨t, rfl, ht⟩ | ⟨t, l, bad, rest, rfl, ht, hb⟩
    · obtain ⟨acts, h, h2⟩ := new_ok env files t hr hc ht
      rw [h] at hg
      cases hg
      rw [Generator.apply]
      split
      · simp only
        split
        · simp
        · rename_i caps _
          rw [applyActions_eq, h2]
          have e : (t.map fun p => ((.ok (Utf8.encode p.1), p.2.2) : Res (List Nat) × ActionKind)) ++
              (if tail = [] then [] else [(.ok (Utf8.encode tail), .none)]) =
              ((t.map fun p => (p.1, p.2.2)) ++ if tail = [] then [] else [(tail, ActionKind.none)]).map
                fun p => ((.ok (Utf8.encode p.1), p.2) : Res (List Nat) × ActionKind) := by
            split <;> simp
          rw [e]
          rcases applyPieces_valid env caps file
            ((t.map fun p => (p.1, p.2.2)) ++ if tail = [] then [] else [(tail, .none)]) [] with h | ⟨s, h⟩ | ⟨m, h⟩ | h
          · rw [show ([] : List Nat) = Utf8.encode [] from rfl, h]; simp
          · rw [show ([] : List Nat) = Utf8.encode [] from rfl, h]; simp [Utf8.decode_encode]
          · rw [show ([] : List Nat) = Utf8.encode [] from rfl, h]; simp
          · exact absurd h hp
      · simp
    · rw [new_err env files t rest hr hc ht hb] at hg; cases hg

/-- Text that is not UTF-8 exists, so the statement is not empty. -/
example : Utf8.decode [0xC3] = none ∧ Utf8.decode (Utf8.encode (str% "é{ü}")) = some (str% "é{ü}") := by decide

/-! ### C36: precedence -/

theorem lookup_insertVar (m : List (Str × Str)) (k v k' : Str) :
    (insertVar m k v).lookup k' = if k' = k then some v else m.lookup k' := by
  unfold insertVar
  rw [List.lookup_cons]
  by_cases h : k' = k
  · simp [h]
  · have : (k' == k) = false := by simpa using h
    rw [this, if_neg h]
    simp only
    induction m with
    | nil => rfl
    | cons p m ih =>
      rw [List.filter_cons]
      by_cases hp : p.1 = k
      · simp only [hp, bne_self_eq_false, Bool.false_eq_true, if_false]
        rw [ih, List.lookup_cons, hp, this]
      · have : (p.1 != k) = true := by simpa using hp
        rw [this, if_pos rfl, List.lookup_cons, List.lookup_cons, ih]

theorem insertVar_nodup {m : List (Str × Str)} (h : (m.map (·.1)).Nodup) (k v : Str) :
    ((insertVar m k v).map (·.1)).Nodup := by
  unfold insertVar
  rw [List.map_cons, List.nodup_cons]
  refine ⟨?_, ?_⟩
  · intro hm
    obtain ⟨p, hp, e⟩ := List.mem_map.mp hm
    have := (List.mem_filter.mp hp).2
    simp [e] at this
  · exact List.Sublist.nodup (List.Sublist.map _ List.filter_sublist) h

theorem splitEq_some {v k x : Str} : splitEq v = some (k, x) ↔ v = k ++ '=' :: x ∧ '=' ∉ k := by
  induction v generalizing k with
  | nil => simp [splitEq]
  | cons c v ih =>
    rw [splitEq]
    split
    · rename_i hc
      subst hc
      constructor
      · intro h; cases h; simp
      · rintro ⟨h1, h2⟩
        cases k with
        | nil => simp at h1; rw [h1]
        | cons d k => simp only [List.cons_append, List.cons.injEq] at h1; exact absurd (List.mem_cons.mpr (.inl h1.1)) h2
    · rename_i hc
      constructor
      · intro h
        cases hs : splitEq v with
        | none => rw [hs] at h; cases h
        | some p =>
          obtain ⟨a, b⟩ := p
          rw [hs] at h
          cases h
          obtain ⟨h1, h2⟩ := ih.mp hs
          refine ⟨by rw [h1]; rfl, ?_⟩
          simp [h2, Ne.symm hc]
      · rintro ⟨h1, h2⟩
        cases k with
        | nil => simp at h1; exact absurd h1.1 hc
        | cons d k =>
          simp only [List.cons_append, List.cons.injEq] at h1
          rw [ih.mpr ⟨h1.2, fun h => h2 (List.mem_cons_of_mem _ h)⟩, h1.1]
          rfl

theorem splitEq_none {v : Str} : splitEq v = none ↔ '=' ∉ v := by
  induction v with
  | nil => simp [splitEq]
  | cons c v ih =>
    rw [splitEq]
    by_cases hc : c = '='
    · simp [hc]
    · simp [hc, ih, Ne.symm hc]

theorem variablesLoop_ok {vs : List Str} {m out : List (Str × Str)} (h : variablesLoop vs m = .ok out)
    (hm : (m.map (·.1)).Nodup) :
    (out.map (·.1)).Nodup ∧ ∀ k, (∀ x, LastVar vs k x → out.lookup k = some x) ∧
      ((∀ x, ¬ LastVar vs k x) → out.lookup k = m.lookup k) := by
  induction vs generalizing m with
  | nil =>
    cases h
    refine ⟨hm, fun k => ⟨?_, fun _ => rfl⟩⟩
    rintro x ⟨_, pre, post, e, _⟩
    cases pre <;> cases e
  | cons v vs ih =>
    rw [variablesLoop] at h
    cases hs : splitEq v with
    | none => rw [hs] at h; cases h
    | some p =>
      obtain ⟨k0, x0⟩ := p
      rw [hs] at h
      obtain ⟨h1, h2⟩ := ih h (insertVar_nodup hm _ _)
      obtain ⟨rfl, hk0⟩ := splitEq_some.mp hs
      have hcons : ∀ k x, LastVar vs k x → LastVar ((k0 ++ '=' :: x0) :: vs) k x := by
        rintro k x ⟨hk, pre, post, rfl, hp⟩
        exact ⟨hk, _ :: pre, post, rfl, hp⟩
      refine ⟨h1, fun k => ⟨?_, ?_⟩⟩
      · rintro x ⟨hk, pre, post, e, hp⟩
        cases pre with
        | nil =>
          simp only [List.nil_append, List.cons.injEq] at e
          obtain ⟨e1, rfl⟩ := e
          have : splitEq (k ++ '=' :: x) = some (k0, x0) := by rw [← e1]; exact hs
          rw [splitEq_some.mpr ⟨rfl, hk⟩] at this
          injection this with this
          injection this with e2 e3
          rw [(h2 k).2, lookup_insertVar, if_pos e2, e3]
          rintro y ⟨_, pre, post, rfl, _⟩
          exact hp (k ++ '=' :: y) (by simp) ⟨y, by simp⟩
        | cons w pre =>
          simp only [List.cons_append, List.cons.injEq] at e
          exact (h2 k).1 x ⟨hk, pre, post, e.2, hp⟩
      · intro hn
        rw [(h2 k).2 fun x hx => hn x (hcons k x hx), lookup_insertVar]
        by_cases hk : k = k0
        · exfalso
          rw [← hk] at hk0 hcons hn
          refine hn x0 ⟨hk0, [], vs, rfl, ?_⟩
          -- a later value of the same variable would be its last value
          intro w hw hpre
          have : ∀ l : List Str, w ∈ l → ∃ x, LastVar l k x := by
            intro l hl
            induction l with
            | nil => cases hl
            | cons a l ihl =>
              by_cases ha : ∃ y ∈ l, (k ++ ['=']) <+: y
              · obtain ⟨y, hy, hpy⟩ := ha
                have key : ∀ l' : List Str, (∃ y ∈ l', (k ++ ['=']) <+: y) → ∃ x, LastVar l' k x := by
                  intro l'
                  induction l' with
                  | nil => rintro ⟨_, h, _⟩; cases h
                  | cons b l' ih' =>
                    intro hex
                    by_cases hb : ∃ y ∈ l', (k ++ ['=']) <+: y
                    · obtain ⟨x, hk', pre, post, rfl, hp⟩ := ih' hb
                      exact ⟨x, hk', b :: pre, post, rfl, hp⟩
                    · obtain ⟨y, hy, hpy⟩ := hex
                      rcases List.mem_cons.mp hy with rfl | hy
                      · obtain ⟨x, rfl⟩ := hpy
                        exact ⟨x, hk0, [], l', by simp, fun w hw h => hb ⟨w, hw, h⟩⟩
                      · exact absurd ⟨y, hy, hpy⟩ hb
                exact key (a :: l) ⟨y, List.mem_cons_of_mem _ hy, hpy⟩
              · rcases List.mem_cons.mp hl with rfl | hl
                · obtain ⟨x, rfl⟩ := hpre
                  exact ⟨x, hk0, [], l, by simp, fun y hy h => ha ⟨y, hy, h⟩⟩
                · exact absurd ⟨w, hl, hpre⟩ ha
          obtain ⟨x, hx⟩ := this vs hw
          exact hn x (hcons k x hx)
        · rw [if_neg hk]

/-- Reading the variables of the command line fails exactly when some text has no `=`; a variable has the value given to
it last. -/
theorem C36_variables (vs : List Str) :
    ((∃ out, getVariables (some vs) = .ok out) ↔ ∀ v ∈ vs, '=' ∈ v) ∧
    ∀ out, getVariables (some vs) = .ok out → ∀ k x, out.lookup k = some x ↔ LastVar vs k x := by
  constructor
  · simp only [getVariables]
    suffices h : ∀ m, (∃ out, variablesLoop vs m = .ok out) ↔ ∀ v ∈ vs, '=' ∈ v from h []
    induction vs with
    | nil => intro m; exact ⟨fun _ => by simp, fun _ => ⟨m, rfl⟩⟩
    | cons v vs ih =>
      intro m
      rw [variablesLoop]
      cases hs : splitEq v with
      | none =>
        have := splitEq_none.mp hs
        simp [this]
      | some p =>
        obtain ⟨k, x⟩ := p
        have : '=' ∈ v := by rw [(splitEq_some.mp hs).1]; simp
        simp [ih, this]
  · intro out h k x
    obtain ⟨h1, h2⟩ := variablesLoop_ok h List.nodup_nil
    constructor
    · intro hx
      by_cases hl : ∃ y, LastVar vs k y
      · obtain ⟨y, hy⟩ := hl
        rw [(h2 k).1 y hy] at hx
        cases hx
        exact hy
      · rw [(h2 k).2 fun y hy => hl ⟨y, hy⟩] at hx
        cases hx
    · exact (h2 k).1 x

theorem foldl_insertVar {l base : List (Str × Str)} (h : (l.map (·.1)).Nodup) (k : Str) :
    (l.foldl (fun acc p => insertVar acc p.1 p.2) base).lookup k = (l.lookup k).or (base.lookup k) := by
  induction l generalizing base with
  | nil => rfl
  | cons p l ih =>
    rw [List.map_cons, List.nodup_cons] at h
    rw [List.foldl_cons, ih h.2, lookup_insertVar, List.lookup_cons]
    by_cases hk : k = p.1
    · have hb : (k == p.1) = true := by simpa using hk
      have : l.lookup k = none := by
        cases hl : l.lookup k with
        | none => rfl
        | some v => exact absurd (List.mem_map.mpr ⟨_, mem_of_lookup hl, hk⟩) h.1
      rw [hb, this, if_pos hk]
      rfl
    · have hb : (k == p.1) = false := by simpa using hk
      rw [hb, if_neg hk]

theorem lookup_perm {l l' : List (Str × Str)} (h : (l.map (·.1)).Nodup) (hp : l'.Perm l) (k : Str) :
    l'.lookup k = l.lookup k := by
  have h' : (l'.map (·.1)).Nodup := (hp.map _).nodup_iff.mpr h
  cases hl : l.lookup k with
  | some v => exact lookup_of_mem h' (hp.mem_iff.mpr (mem_of_lookup hl))
  | none =>
    cases hl' : l'.lookup k with
    | none => rfl
    | some v =>
      have := lookup_of_mem h (hp.mem_iff.mp (mem_of_lookup hl'))
      rw [hl] at this; cases this

theorem entriesLoop_ok {env : MapEnv} {vars : List (Str × Str)} {es : List Entry} {out noFiles a b : List Generator}
    (h : entriesLoop env vars es out noFiles = .ok (a, b)) :
    ∃ a' b', a = out ++ a' ∧ b = noFiles ++ b' ∧ Gens env vars (es.filter fun e => e.files ≠ []) a' ∧
      Gens env vars (es.filter fun e => e.files = []) b' := by
  induction es generalizing out noFiles with
  | nil => cases h; exact ⟨[], [], by simp, by simp, rfl, rfl⟩
  | cons e es ih =>
    rw [entriesLoop] at h
    cases hg : Generator.new env e.source e.destination vars e.files with
    | err _ => rw [hg] at h; cases h
    | panic => rw [hg] at h; cases h
    | ok g =>
      rw [hg] at h
      simp only [Res.bind_ok] at h
      split at h
      · rename_i he
        obtain ⟨a', b', rfl, rfl, h1, h2⟩ := ih h
        refine ⟨a', g :: b', rfl, by simp, ?_, ?_⟩
        · simpa [he] using h1
        · unfold Gens at h2 ⊢
          rw [List.filter_cons, if_pos (by simpa using he), List.map_cons, List.map_cons, h2, hg]
      · rename_i he
        obtain ⟨a', b', rfl, rfl, h1, h2⟩ := ih h
        refine ⟨g :: a', b', by simp, rfl, ?_, ?_⟩
        · unfold Gens at h1 ⊢
          rw [List.filter_cons, if_pos (by simpa using he), List.map_cons, List.map_cons, h1, hg]
        · simpa [he] using h2

theorem pairsLoop_ok {env : MapEnv} {vars : List (Str × Str)} {ss ds : List Str} {out a : List Generator}
    (h : pairsLoop env vars ss ds out = .ok a) :
    ∃ a', a = out ++ a' ∧ Gens env vars ((ss.zip ds).map fun p => ⟨p.1, p.2, []⟩) a' := by
  induction ss generalizing ds out with
  | nil => cases h; exact ⟨[], by simp, rfl⟩
  | cons s ss ih =>
    cases ds with
    | nil => cases h; exact ⟨[], by simp, rfl⟩
    | cons d ds =>
      rw [pairsLoop] at h
      cases hg : Generator.new env s d vars [] with
      | err _ => rw [hg] at h; cases h
      | panic => rw [hg] at h; cases h
      | ok g =>
        rw [hg] at h
        obtain ⟨a', rfl, h1⟩ := ih h
        refine ⟨g :: a', by simp, ?_⟩
        unfold Gens at h1 ⊢
        rw [List.zip_cons_cons, List.map_cons, List.map_cons, List.map_cons, h1, hg]

/-- The mappings, in order: those of the mapping file that list files, those that list none, then the command-line pairs;
a variable of the command line hides one of the mapping file. -/
theorem C36_order (env : MapEnv) (ho : ∀ l, (env.order l).Perm l) {variables sources destinations : Option (List Str)}
    {file : Option Str} {o : Option (List Generator)} (h : new env variables sources destinations file = .ok o) :
    ∃ cli a b c, getVariables variables = .ok cli ∧ o.getD [] = a ++ b ++ c ∧ (o = none ↔ a ++ b ++ c = []) ∧
      (file = none → a = [] ∧ b = []) ∧
      (∀ f, file = some f → ∃ data m vars, env.read f = .ok data ∧ env.json data = some m ∧
        (∀ k, vars.lookup k = (cli.lookup k).or (m.variables.lookup k)) ∧
        Gens env vars (m.mappings.filter fun e => e.files ≠ []) a ∧
        Gens env vars (m.mappings.filter fun e => e.files = []) b) ∧
      (sources.getD []).length = (destinations.getD []).length ∧
      Gens env cli (((sources.getD []).zip (destinations.getD [])).map fun p => ⟨p.1, p.2, []⟩) c := by
  rw [new] at h
  cases hv : getVariables variables with
  | err _ => rw [hv] at h; cases h
  | panic => rw [hv] at h; cases h
  | ok cli =>
    rw [hv, Res.bind_ok] at h
    have hn : (cli.map (·.1)).Nodup := by
      cases variables with
      | none => cases hv; exact List.nodup_nil
      | some vs => exact (variablesLoop_ok hv List.nodup_nil).1
    cases hf : getMappingsFromFile env cli file [] with
    | err _ => rw [hf] at h; cases h
    | panic => rw [hf] at h; cases h
    | ok ab =>
      rw [hf, Res.bind_ok] at h
      have hfile : ∃ a b, ab = a ++ b ∧ (file = none → a = [] ∧ b = []) ∧
          (∀ f, file = some f → ∃ data m vars, env.read f = .ok data ∧ env.json data = some m ∧
            (∀ k, vars.lookup k = (cli.lookup k).or (m.variables.lookup k)) ∧
            Gens env vars (m.mappings.filter fun e => e.files ≠ []) a ∧
            Gens env vars (m.mappings.filter fun e => e.files = []) b) := by
        cases file with
        | none => cases hf; exact ⟨[], [], rfl, fun _ => ⟨rfl, rfl⟩, fun f h => by cases h⟩
        | some f =>
          rw [getMappingsFromFile] at hf
          simp only [MappingsFile.new] at hf
          cases hr : env.read f with
          | err _ => rw [hr] at hf; cases hf
          | panic => rw [hr] at hf; cases hf
          | ok data =>
            rw [hr] at hf
            simp only [Res.bind_ok] at hf
            cases hj : env.json data with
            | none => rw [hj] at hf; cases hf
            | some m =>
              rw [hj] at hf
              simp only [Res.bind_ok] at hf
              cases he : entriesLoop env ((env.order cli).foldl (fun acc p => insertVar acc p.1 p.2) m.variables) m.mappings
                  [] [] with
              | err _ => rw [he] at hf; cases hf
              | panic => rw [he] at hf; cases hf
              | ok p =>
                obtain ⟨a, b⟩ := p
                rw [he] at hf
                cases hf
                obtain ⟨a', b', ea, eb, h1, h2⟩ := entriesLoop_ok he
                refine ⟨a', b', by rw [ea, eb]; rfl, (by simp), ?_⟩
                intro g hfg
                cases hfg
                refine ⟨data, m, _, hr, hj, fun k => ?_, h1, h2⟩
                rw [foldl_insertVar (((ho cli).map _).nodup_iff.mpr hn), lookup_perm hn (ho cli)]
      obtain ⟨a, b, rfl, h1, h2⟩ := hfile
      cases hp : getMappings env cli sources destinations (a ++ b) with
      | err _ => rw [hp] at h; cases h
      | panic => rw [hp] at h; cases h
      | ok abc =>
        rw [hp, Res.bind_ok] at h
        have hpairs : ∃ c, abc = a ++ b ++ c ∧ (sources.getD []).length = (destinations.getD []).length ∧
            Gens env cli (((sources.getD []).zip (destinations.getD [])).map fun p => ⟨p.1, p.2, []⟩) c := by
          unfold getMappings at hp
          cases sources with
          | none =>
            cases destinations with
            | none => cases hp; exact ⟨[], by simp, rfl, rfl⟩
            | some ds =>
              simp only [Option.isNone_none, Option.isNone_some, Bool.and_false, Bool.false_eq_true, if_false] at hp
              split at hp <;> cases hp
          | some ss =>
            cases destinations with
            | none =>
              simp only [Option.isNone_none, Option.isNone_some, Bool.false_and, Bool.false_eq_true, if_false] at hp
              split at hp <;> cases hp
            | some ds =>
              simp only [Option.isNone_some, Bool.false_and, Bool.false_eq_true, if_false, Option.map_some,
                Option.getD_some] at hp
              split at hp
              · cases hp
              · rename_i hlen
                obtain ⟨c, rfl, hc⟩ := pairsLoop_ok hp
                exact ⟨c, rfl, Decidable.not_not.mp hlen, hc⟩
        obtain ⟨c, rfl, h3, h4⟩ := hpairs
        refine ⟨cli, a, b, c, rfl, ?_, ?_, h1, h2, h3, h4⟩
        · injection h with h
          subst h
          cases a ++ b ++ c <;> rfl
        · injection h with h
          subst h
          cases a ++ b ++ c <;> simp

/-- Without cache, a path is mapped by the first mapping that does not decline: the mappings before it answer nothing. -/
theorem C36_first (env : MapEnv) (gens : List Generator) (file fileStr : Str) :
    (firstAnswer env file fileStr gens = .ok none ↔ ∀ g ∈ gens, g.apply env file fileStr = .ok none) ∧
    ∀ r, r ≠ .ok none → (firstAnswer env file fileStr gens = r ↔
      ∃ pre g post, gens = pre ++ g :: post ∧ (∀ p ∈ pre, p.apply env file fileStr = .ok none) ∧
        g.apply env file fileStr = r) := by
  induction gens with
  | nil =>
    refine ⟨by simp [firstAnswer], fun r hr => ⟨fun h => absurd h.symm hr, ?_⟩⟩
    rintro ⟨pre, g, post, e, _⟩
    cases pre <;> cases e
  | cons g gens ih =>
    have hcons : ∀ {P : Generator → Prop}, (∀ p ∈ g :: gens, P p) ↔ P g ∧ ∀ p ∈ gens, P p := by simp
    cases ha : g.apply env file fileStr with
    | ok o =>
      cases o with
      | none =>
        have e : firstAnswer env file fileStr (g :: gens) = firstAnswer env file fileStr gens := by
          simp [firstAnswer, ha]
        rw [e]
        refine ⟨by rw [ih.1, hcons]; simp [ha], fun r hr => ?_⟩
        rw [ih.2 r hr]
        constructor
        · rintro ⟨pre, g', post, rfl, h1, h2⟩
          exact ⟨g :: pre, g', post, rfl, by simpa [ha] using h1, h2⟩
        · rintro ⟨pre, g', post, e, h1, h2⟩
          cases pre with
          | nil =>
            simp only [List.nil_append, List.cons.injEq] at e
            rw [← e.1, ha] at h2
            exact absurd h2.symm hr
          | cons p pre =>
            simp only [List.cons_append, List.cons.injEq] at e
            exact ⟨pre, g', post, e.2, fun q hq => h1 q (List.mem_cons_of_mem _ hq), h2⟩
      | some t =>
        have e : firstAnswer env file fileStr (g :: gens) = .ok (some t) := by simp [firstAnswer, ha]
        rw [e]
        refine ⟨by rw [hcons]; simp [ha], fun r hr => ⟨fun h => ⟨[], g, gens, rfl, by simp, ha.trans h⟩, ?_⟩⟩
        rintro ⟨pre, g', post, e, h1, h2⟩
        cases pre with
        | nil =>
          simp only [List.nil_append, List.cons.injEq] at e
          rw [← e.1, ha] at h2
          exact h2
        | cons p pre =>
          simp only [List.cons_append, List.cons.injEq] at e
          have := h1 p (by simp)
          rw [← e.1, ha] at this
          cases this
    | err m =>
      have e : firstAnswer env file fileStr (g :: gens) = .err m := by simp [firstAnswer, ha]
      rw [e]
      refine ⟨by rw [hcons]; simp [ha], fun r hr => ⟨fun h => ⟨[], g, gens, rfl, by simp, ha.trans h⟩, ?_⟩⟩
      rintro ⟨pre, g', post, e, h1, h2⟩
      cases pre with
      | nil =>
        simp only [List.nil_append, List.cons.injEq] at e
        rw [← e.1, ha] at h2
        exact h2
      | cons p pre =>
        simp only [List.cons_append, List.cons.injEq] at e
        have := h1 p (by simp)
        rw [← e.1, ha] at this
        cases this
    | panic =>
      have e : firstAnswer env file fileStr (g :: gens) = .panic := by simp [firstAnswer, ha]
      rw [e]
      refine ⟨by rw [hcons]; simp [ha], fun r hr => ⟨fun h => ⟨[], g, gens, rfl, by simp, ha.trans h⟩, ?_⟩⟩
      rintro ⟨pre, g', post, e, h1, h2⟩
      cases pre with
      | nil =>
        simp only [List.nil_append, List.cons.injEq] at e
        rw [← e.1, ha] at h2
        exact h2
      | cons p pre =>
        simp only [List.cons_append, List.cons.injEq] at e
        have := h1 p (by simp)
        rw [← e.1, ha] at this
        cases this

/-- A whole configuration, applied to a path. -/
def mapOf (variables sources destinations : Option (List Str)) (mapFile : Option Str) (file : Str) : Res (Option Str) := do
  match ← new sampleEnv variables sources destinations mapFile with
  | none => .ok none
  | some gens => do
    let r ← map sampleEnv gens [] file
    .ok r.1

/-- The entry that lists the file wins, although it comes second. -/
example : mapOf none (some [str% "a"]) (some [str% "C{1}"]) (some (str% "map.json")) (str% "/foo/a.c") =
    .ok (some (str% "By")) := by decide +kernel
/-- Another file: the entry without files, with the last `rev` of the command line. -/
example : mapOf (some [str% "rev=1", str% "rev=2=3"]) (some [str% "a"]) (some [str% "C{1}"]) (some (str% "map.json"))
    (str% "/foo/b.c") = .ok (some (str% "Ab.c2=3")) := by decide +kernel
example : mapOf none (some [str% "a"]) (some [str% "C{1}"]) none (str% "/foo/b.c") = .ok (some (str% "Cb.c")) := by
  decide +kernel

/-! ### C37: the cache -/

theorem getDigest_congr {env : MapEnv} {f f' : Str} (h : env.read f = env.read f') (u : Bool) :
    getDigest env f u = getDigest env f' u := by simp only [getDigest, h]

theorem actionText_congr {env : MapEnv} {f f' : Str} (h : env.read f = env.read f') (caps : Captures) (k : ActionKind) :
    actionText env caps f k = actionText env caps f' k := by
  cases k with
  | digest u => simp only [actionText, getDigest_congr h]
  | _ => rfl

theorem applyActions_congr {env : MapEnv} {f f' : Str} (h : env.read f = env.read f') (m : List Nat) (caps : Captures)
    (as : List Action) (buf : List Nat) : applyActions env m caps f as buf = applyActions env m caps f' as buf := by
  induction as generalizing buf with
  | nil => rfl
  | cons a as ih => simp only [applyActions, actionText_congr h, ih]

theorem firstAnswer_congr {env : MapEnv} {f f' : Str} (h : env.read f = env.read f') (s : Str) (gens : List Generator) :
    firstAnswer env f s gens = firstAnswer env f' s gens := by
  induction gens with
  | nil => rfl
  | cons g gens ih =>
    have : g.apply env f s = g.apply env f' s := by simp only [Generator.apply, applyActions_congr h]
    simp only [firstAnswer, this, ih]

theorem mapSteps_spec {env : MapEnv} (hr : ∀ f, env.read (fileStrOf env f) = env.read f) {gens : List Generator}
    {s : Shared} {as : List (Str × Res (Option Str))} (h : MapSteps env gens ⟨[], []⟩ as s) :
    (∀ k v, s.cache.lookup k = some v → ∃ f, k = fileStrOf env f ∧ firstAnswer env f k gens = .ok (some v)) ∧
    ∀ p ∈ as, p.2 = firstAnswer env p.1 (fileStrOf env p.1) gens := by
  induction h with
  | refl => exact ⟨by simp, by simp⟩
  | tail h h' ih =>
    obtain ⟨ih1, ih2⟩ := ih
    have hkey : ∀ {f f' : Str}, fileStrOf env f = fileStrOf env f' → env.read f = env.read f' := by
      intro f f' e; rw [← hr f, ← hr f', e]
    cases h' with
    | hit file r hl =>
      refine ⟨ih1, fun p hp => ?_⟩
      rcases List.mem_append.mp hp with hp | hp
      · exact ih2 p hp
      · simp only [Option.toList_some, List.mem_singleton] at hp
        subst hp
        obtain ⟨f, e, hf⟩ := ih1 _ _ hl
        rw [← hf]
        exact firstAnswer_congr (hkey e.symm) _ _
    | miss file hl => exact ⟨ih1, by simpa using ih2⟩
    | found pre post file r hf hl =>
      refine ⟨fun k v hk => ?_, fun p hp => ?_⟩
      · rw [lookup_insertVar] at hk
        split at hk
        · rename_i e; cases hk; subst e; exact ⟨file, rfl, hl⟩
        · exact ih1 k v hk
      · rcases List.mem_append.mp hp with hp | hp
        · exact ih2 p hp
        · simp only [Option.toList_some, List.mem_singleton] at hp
          subst hp
          exact hl.symm
    | other pre post file r hf hl hn =>
      refine ⟨ih1, fun p hp => ?_⟩
      rcases List.mem_append.mp hp with hp | hp
      · exact ih2 p hp
      · simp only [Option.toList_some, List.mem_singleton] at hp
        subst hp
        exact hl.symm

/-- Whatever calls ran before or run at the same time, in any interleaving of lookups and insertions, every call answers
what it would answer without a cache.  (`hr`: a path and the same path without `\\?\` name the same file.) -/
theorem C37_cache_transparent {env : MapEnv} (hr : ∀ f, env.read (fileStrOf env f) = env.read f) {gens : List Generator}
    {s : Shared} {as : List (Str × Res (Option Str))} (h : MapSteps env gens ⟨[], []⟩ as s) {file : Str}
    {r : Res (Option Str)} (ha : (file, r) ∈ as) : r = firstAnswer env file (fileStrOf env file) gens :=
  (mapSteps_spec hr h).2 _ ha

/-- Calls that run one after the other: `map` is a sequence of such steps. -/
theorem C37_sequential {env : MapEnv} {gens : List Generator} {s : Shared} {as : List (Str × Res (Option Str))}
    (h : MapSteps env gens ⟨[], []⟩ as s) (hf : s.inFlight = []) (file : Str) :
    match map env gens s.cache file with
    | .ok (r, cache) => MapSteps env gens ⟨[], []⟩ (as ++ [(file, .ok r)]) ⟨cache, []⟩
    | .err m => MapSteps env gens ⟨[], []⟩ (as ++ [(file, .err m)]) ⟨s.cache, []⟩
    | .panic => MapSteps env gens ⟨[], []⟩ (as ++ [(file, .panic)]) ⟨s.cache, []⟩ := by
  obtain ⟨cache, inFlight⟩ := s
  simp only at hf
  subst hf
  rw [map]
  simp only
  cases hl : cache.lookup (fileStrOf env file) with
  | some r => exact h.tail (.hit _ file r hl)
  | none =>
    have h1 := h.tail (.miss _ file hl)
    rw [Option.toList_none, List.append_nil] at h1
    cases ha : firstAnswer env file (fileStrOf env file) gens with
    | ok o =>
      cases o with
      | some r => exact h1.tail (.found _ [] [] file r rfl ha)
      | none => exact h1.tail (.other _ [] [] file _ rfl ha (by simp))
    | err m => exact h1.tail (.other _ [] [] file _ rfl ha (by simp))
    | panic => exact h1.tail (.other _ [] [] file _ rfl ha (by simp))

/-- Two calls for the same path: the second is answered from the cache, with the same text. -/
def mapTwice (dest file : Str) : Res (List (Option Str)) := do
  let g ← Generator.new sampleEnv (str% "x") dest [] []
  let r ← map sampleEnv [g] [] file
  let r' ← map sampleEnv [g] r.2 file
  .ok [r.1, r.2.lookup file, r'.1]

example : mapTwice (str% "C{1}") (str% "/foo/b.c") =
    .ok [some (str% "Cb.c"), some (str% "Cb.c"), some (str% "Cb.c")] := by decide +kernel

/-! ### C38: options -/

theorem variablesLoop_no_panic (vs : List Str) (m : List (Str × Str)) : variablesLoop vs m ≠ .panic := by
  induction vs generalizing m with
  | nil => simp [variablesLoop]
  | cons v vs ih =>
    rw [variablesLoop]
    split
    · exact ih _
    · simp

theorem pairsLoop_no_panic (env : MapEnv) (vars : List (Str × Str)) (ss ds : List Str) (out : List Generator) :
    pairsLoop env vars ss ds out ≠ .panic := by
  induction ss generalizing ds out with
  | nil => simp [pairsLoop]
  | cons s ss ih =>
    cases ds with
    | nil => simp [pairsLoop]
    | cons d ds =>
      rw [pairsLoop]
      cases hg : Generator.new env s d vars [] with
      | err _ => simp
      | panic => exact absurd hg (C35_parse_no_panic env s d vars [])
      | ok g => exact ih _ _

theorem entriesLoop_no_panic (env : MapEnv) (vars : List (Str × Str)) (es : List Entry) (a b : List Generator) :
    entriesLoop env vars es a b ≠ .panic := by
  induction es generalizing a b with
  | nil => simp [entriesLoop]
  | cons e es ih =>
    rw [entriesLoop]
    cases hg : Generator.new env e.source e.destination vars e.files with
    | err _ => simp
    | panic => exact absurd hg (C35_parse_no_panic _ _ _ _ _)
    | ok g =>
      simp only [Res.bind_ok]
      split
      · exact ih _ _
      · exact ih _ _

/-- Source and destination lists of different lengths are never accepted. -/
theorem C38_lengths (env : MapEnv) (ho : ∀ l, (env.order l).Perm l) {variables sources destinations : Option (List Str)}
    {file : Option Str} (h : (sources.getD []).length ≠ (destinations.getD []).length) (o : Option (List Generator)) :
    new env variables sources destinations file ≠ .ok o := by
  intro hn
  obtain ⟨_, _, _, _, _, _, _, _, _, he, _⟩ := C36_order env ho hn
  exact h he

/-- Building the mappings does not panic, except when the mapping file exists but cannot be read, or when one of the
source and destination lists is absent and the other present but empty.  Missing for C38: the second exception (see the
witness below; the command line cannot produce it, a caller of the library can). -/
theorem C38_no_panic_partial (env : MapEnv) {variables sources destinations : Option (List Str)} {file : Option Str}
    (hr : ∀ f, file = some f → env.read f ≠ .panic)
    (h : ¬ (sources = none ∧ destinations = some []) ∧ ¬ (sources = some [] ∧ destinations = none)) :
    new env variables sources destinations file ≠ .panic := by
  rw [new]
  cases hv : getVariables variables with
  | err _ => simp
  | panic =>
    cases variables with
    | none => cases hv
    | some vs => exact absurd hv (variablesLoop_no_panic _ _)
  | ok cli =>
    rw [Res.bind_ok]
    cases hf : getMappingsFromFile env cli file [] with
    | err _ => simp
    | panic =>
      exfalso
      cases file with
      | none => cases hf
      | some f =>
        simp only [getMappingsFromFile, MappingsFile.new] at hf
        cases hrd : env.read f with
        | err _ => rw [hrd] at hf; cases hf
        | panic => exact hr f rfl hrd
        | ok data =>
          rw [hrd] at hf
          simp only [Res.bind_ok] at hf
          cases hj : env.json data with
          | none => rw [hj] at hf; cases hf
          | some m =>
            rw [hj] at hf
            simp only [Res.bind_ok] at hf
            cases he : entriesLoop env ((env.order cli).foldl (fun acc p => insertVar acc p.1 p.2) m.variables) m.mappings
                [] [] with
            | err _ => rw [he] at hf; cases hf
            | panic => exact entriesLoop_no_panic _ _ _ _ _ he
            | ok p => rw [he] at hf; cases hf
    | ok ab =>
      rw [Res.bind_ok]
      cases hp : getMappings env cli sources destinations ab with
      | err _ => simp
      | ok _ => simp
      | panic =>
        exfalso
        unfold getMappings at hp
        cases sources with
        | none =>
          cases destinations with
          | none => cases hp
          | some ds =>
            cases ds with
            | nil => exact h.1 ⟨rfl, rfl⟩
            | cons d ds => simp at hp
        | some ss =>
          cases destinations with
          | none =>
            cases ss with
            | nil => exact h.2 ⟨rfl, rfl⟩
            | cons s ss => simp at hp
          | some ds =>
            simp only [Option.isNone_some, Bool.false_and, Bool.false_eq_true, if_false, Option.map_some,
              Option.getD_some] at hp
            split at hp
            · cases hp
            · exact pairsLoop_no_panic _ _ _ _ _ hp

/-- An absent list and an empty one have the same length, so they pass the check, and the absent one is unwrapped. -/
theorem C38_empty_list_witness (env : MapEnv) : new env none (some []) none none = .panic ∧
    new env none none (some []) none = .panic := ⟨rfl, rfl⟩

example : mapOf none (some [str% "a", str% "b"]) (some [str% "C{1}"]) none (str% "/foo/b.c") =
    .err (str% "mapping-src and mapping-dest must have the same number of elements") := by decide +kernel
example : mapOf (some [str% "norev"]) none none none [] = .err (str% "Invalid pair norev: must be var=value") := by
  decide +kernel

end Mapping
end DumpSyms
