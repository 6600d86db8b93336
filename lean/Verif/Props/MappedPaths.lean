import Verif.Props.Mapping
import Verif.Props.Header
import Verif.Props.Symbolicate
import Verif.Spec.Rules
/-!
# C79: the paths of the FILE records, through the path mapping
-/
namespace DumpSyms
namespace Mapping

theorem seen_fileStrOf (env : MapEnv) (p q : Str) : Seen env p q ↔ q = fileStrOf env p := by
  unfold Seen fileStrOf
  cases env.windows with
  | false => simp
  | true =>
    simp only [if_true, true_implies, Bool.true_eq_false, false_implies, and_true]
    split
    · rename_i r
      constructor
      · rintro (h | ⟨h, _⟩)
        · simpa using h.symm
        · exact absurd ⟨r, rfl⟩ h
      · rintro rfl; exact .inl rfl
    · rename_i h
      constructor
      · rintro (h' | ⟨_, h'⟩)
        · exact absurd h' (h q)
        · exact h'
      · rintro rfl
        refine .inr ⟨?_, rfl⟩
        rintro ⟨t, ht⟩
        exact h t ht.symm

theorem means_ne_none {vars : List (Str × Str)} {a : Str} {k : ActionKind} (h : Means vars a k) : k ≠ .none := by
  cases h <;> simp

/-- Every action has a value, or there is a first one without. -/
theorem values_or_stop {env : MapEnv} (hs : ∀ d, ∀ b ∈ env.sha512 d, b < 256) (caps : Captures) (p : Str)
    (t : List (Str × Str × ActionKind)) (hk : ∀ x ∈ t, x.2.2 ≠ .none) :
    (∃ t' : List (Str × Str × ActionKind × Str), t = t'.map (fun x => (x.1, x.2.1, x.2.2.1)) ∧
      ∀ x ∈ t', Value env caps p x.2.2.1 x.2.2.2) ∨
    (∃ (t' : List (Str × Str × ActionKind × Str)) (l act : Str) (k : ActionKind) (rest : List (Str × Str × ActionKind)),
      t = t'.map (fun x => (x.1, x.2.1, x.2.2.1)) ++ (l, act, k) :: rest ∧ (∀ x ∈ t', Value env caps p x.2.2.1 x.2.2.2) ∧
      ((∃ n, k = .group n ∧ caps n = none) ∨ ∃ u, k = .digest u ∧ ∀ d, env.read p ≠ .ok d)) := by
  induction t with
  | nil => exact .inl ⟨[], rfl, by simp⟩
  | cons x t ih =>
    obtain ⟨l, act, k⟩ := x
    rcases value_exists (caps := caps) (file := p) (hk (l, act, k) (by simp)) hs with ⟨v, hv⟩ | h
    · rcases ih (fun y hy => hk y (by simp [hy])) with ⟨t', rfl, h'⟩ | ⟨t', l', act', k', rest, rfl, h', h''⟩
      · refine .inl ⟨(l, act, k, v) :: t', rfl, ?_⟩
        intro y hy
        rcases List.mem_cons.mp hy with rfl | hy
        · exact hv
        · exact h' y hy
      · refine .inr ⟨(l, act, k, v) :: t', l', act', k', rest, rfl, ?_, h''⟩
        intro y hy
        rcases List.mem_cons.mp hy with rfl | hy
        · exact hv
        · exact h' y hy
    · exact .inr ⟨[], l, act, k, t, rfl, by simp, h⟩

/-- What a generator answers is what its rule says. -/
theorem apply_rule {env : MapEnv} (hs : ∀ d, ∀ b ∈ env.sha512 d, b < 256) {rule : Rule} {g : Generator}
    (hg : Generator.new env rule.source rule.dest rule.vars rule.files = .ok g) (p : Str) :
    (∀ r, g.apply env p (fileStrOf env p) = .ok (some r) ↔ rule.Gives env p r) ∧
    (g.apply env p (fileStrOf env p) = .ok none ↔ rule.Declines env p) ∧
    (∀ m, g.apply env p (fileStrOf env p) = .err m ↔ rule.DigestFails env p (.err m)) ∧
    (g.apply env p (fileStrOf env p) = .panic ↔ rule.DigestFails env p .panic) := by
  obtain ⟨re, hre⟩ : ∃ re, env.regex rule.source = some re := by
    cases h : env.regex rule.source with
    | none => simp [Generator.new, h] at hg
    | some re => exact ⟨re, rfl⟩
  have hmatch : ∀ caps, rule.Matches env p caps ↔
      (rule.files = [] ∨ fileStrOf env p ∈ rule.files) ∧ re (fileStrOf env p) = some caps := by
    intro caps
    constructor
    · rintro ⟨q, re', h1, h2, h3, h4⟩
      rw [hre] at h3; cases h3
      cases (seen_fileStrOf env p q).mp h1
      exact ⟨h2, h4⟩
    · rintro ⟨h1, h2⟩
      exact ⟨_, re, (seen_fileStrOf env p _).mpr rfl, h1, hre, h2⟩
  have f1 : ∀ r, rule.Gives env p r → g.apply env p (fileStrOf env p) = .ok (some r) := by
    rintro r ⟨caps, tail, t, h1, ⟨h2, h3⟩, h4, rfl⟩
    obtain ⟨h5, h6⟩ := (hmatch caps).mp h1
    exact C34_expand env t hre (by simpa [Function.comp_def] using h2)
      (fun x hx => h3 _ (List.mem_map.mpr ⟨x, hx, rfl⟩)) h4 hg h5 h6
  have fstop : ∀ caps k, rule.Reaches env p caps k → (g.files = [] ∨ fileStrOf env p ∈ g.files) ∧ g.re (fileStrOf env p) = some caps ∧
      ∃ l more buf, applyActions env g.mapping caps p g.actions [] = applyPieces env caps p ((.ok (Utf8.encode l), k) :: more) buf := by
    rintro caps k ⟨l, act, tail, rest, t, h1, ⟨h2, h3⟩, h4⟩
    obtain ⟨h5, h6⟩ := (hmatch caps).mp h1
    obtain ⟨g1, g2, more, buf, g3⟩ := applyPieces_until env t rest hre (l := l) (act := act) (k := k) (tail := tail)
      (by simpa [Function.comp_def] using h2)
      (fun x hx => h3 _ (List.mem_append_left _ (List.mem_map.mpr ⟨x, hx, rfl⟩)))
      (h3 (l, act, k) (by simp)) (fun x hx => h3 x (by simp [hx])) h4 hg
    exact ⟨by rw [g2]; exact h5, by rw [g1]; exact h6, l, more, buf, g3⟩
  have f2 : rule.Declines env p → g.apply env p (fileStrOf env p) = .ok none := by
    rintro (h | ⟨caps, n, h, hn⟩)
    · refine C34_no_match env hre hg ?_
      by_cases hf : rule.files = [] ∨ fileStrOf env p ∈ rule.files
      · right
        cases hc : re (fileStrOf env p) with
        | none => rfl
        | some caps => exact absurd ((hmatch caps).mpr ⟨hf, hc⟩) (h caps)
      · left
        exact ⟨fun x => hf (.inl x), fun x => hf (.inr x)⟩
    · obtain ⟨e1, e2, l, more, buf, e⟩ := fstop caps _ h
      rw [Generator.apply, if_pos e1, e2]
      simp only
      rw [e]
      simp [applyPieces, actionText, hn]
  have f3 : ∀ m, rule.DigestFails env p (.err m) → g.apply env p (fileStrOf env p) = .err m := by
    rintro m ⟨caps, u, h, hn⟩
    obtain ⟨e1, e2, l, more, buf, e⟩ := fstop caps _ h
    rw [Generator.apply, if_pos e1, e2]
    simp only
    rw [e]
    simp [applyPieces, actionText, getDigest, hn]
  have f4 : rule.DigestFails env p .panic → g.apply env p (fileStrOf env p) = .panic := by
    rintro ⟨caps, u, h, hn⟩
    obtain ⟨e1, e2, l, more, buf, e⟩ := fstop caps _ h
    rw [Generator.apply, if_pos e1, e2]
    simp only
    rw [e]
    simp [applyPieces, actionText, getDigest, hn]
  have total : (∃ r, rule.Gives env p r) ∨ rule.Declines env p ∨ (∃ m, rule.DigestFails env p (.err m)) ∨
      rule.DigestFails env p .panic := by
    by_cases hm : ∃ caps, rule.Matches env p caps
    · obtain ⟨caps, hm⟩ := hm
      obtain ⟨pairs, tail, hc⟩ := cut_exists rule.dest
      obtain ⟨t, rfl, ht⟩ : ∃ t : List (Str × Str × ActionKind), pairs = t.map (fun p => (p.1, p.2.1)) ∧
          ∀ x ∈ t, Means rule.vars x.2.1 x.2.2 := by
        rcases pieces_or_bad rule.vars pairs with h | ⟨t, l, bad, rest, rfl, ht, hb⟩
        · exact h
        · rw [new_err env rule.files t rest hre hc ht hb] at hg; cases hg
      rcases values_or_stop hs caps p t (fun x hx => means_ne_none (ht x hx)) with
        ⟨t', rfl, h'⟩ | ⟨t', l, act, k, rest, rfl, h', h''⟩
      · exact .inl ⟨_, caps, tail, t', hm, ⟨hc, ht⟩, h', rfl⟩
      · rcases h'' with ⟨n, rfl, hn⟩ | ⟨u, rfl, hn⟩
        · exact .inr (.inl (.inr ⟨caps, n, ⟨l, act, tail, rest, t', hm, ⟨hc, ht⟩, h'⟩, hn⟩))
        · cases hread : env.read p with
          | ok d => exact absurd hread (hn d)
          | err m => exact .inr (.inr (.inl ⟨m, caps, u, ⟨l, act, tail, rest, t', hm, ⟨hc, ht⟩, h'⟩, hread⟩))
          | panic => exact .inr (.inr (.inr ⟨caps, u, ⟨l, act, tail, rest, t', hm, ⟨hc, ht⟩, h'⟩, hread⟩))
    · exact .inr (.inl (.inl fun caps h => hm ⟨caps, h⟩))
  rcases total with ⟨r, h⟩ | h | ⟨m, h⟩ | h
  · have e := f1 r h
    rw [e]
    refine ⟨fun r' => ⟨fun x => (by cases x; exact h), fun x => by rw [← e]; exact f1 r' x⟩,
      ⟨fun x => (by cases x), fun x => by rw [← e]; exact f2 x⟩,
      fun m => ⟨fun x => (by cases x), fun x => by rw [← e]; exact f3 m x⟩,
      ⟨fun x => (by cases x), fun x => by rw [← e]; exact f4 x⟩⟩
  · have e := f2 h
    rw [e]
    refine ⟨fun r' => ⟨fun x => (by cases x), fun x => by rw [← e]; exact f1 r' x⟩,
      ⟨fun _ => h, fun _ => rfl⟩,
      fun m => ⟨fun x => (by cases x), fun x => by rw [← e]; exact f3 m x⟩,
      ⟨fun x => (by cases x), fun x => by rw [← e]; exact f4 x⟩⟩
  · have e := f3 m h
    rw [e]
    refine ⟨fun r' => ⟨fun x => (by cases x), fun x => by rw [← e]; exact f1 r' x⟩,
      ⟨fun x => (by cases x), fun x => by rw [← e]; exact f2 x⟩,
      fun m' => ⟨fun x => (by cases x; exact h), fun x => by rw [← e]; exact f3 m' x⟩,
      ⟨fun x => (by cases x), fun x => by rw [← e]; exact f4 x⟩⟩
  · have e := f4 h
    rw [e]
    refine ⟨fun r' => ⟨fun x => (by cases x), fun x => by rw [← e]; exact f1 r' x⟩,
      ⟨fun x => (by cases x), fun x => by rw [← e]; exact f2 x⟩,
      fun m => ⟨fun x => (by cases x), fun x => by rw [← e]; exact f3 m x⟩,
      ⟨fun _ => h, fun _ => rfl⟩⟩

/-- A list of generators for a list of rules. -/
def GensFor (env : MapEnv) (rules : List Rule) (gs : List Generator) : Prop :=
  rules.map (fun r => Generator.new env r.source r.dest r.vars r.files) = gs.map .ok

theorem mapsTo_cons (env : MapEnv) (rule : Rule) (rules : List Rule) (p r : Str) : MapsTo env (rule :: rules) p r ↔
    rule.Gives env p r ∨ ((∃ m, rule.DigestFails env p (.err m)) ∧ r = p) ∨ (rule.Declines env p ∧ MapsTo env rules p r) := by
  constructor
  · rintro (⟨pre, x, post, e, h1, h2⟩ | ⟨h1, h2⟩)
    · cases pre with
      | nil =>
        cases e
        rcases h2 with h2 | h2
        · exact .inl h2
        · exact .inr (.inl h2)
      | cons y pre =>
        cases e
        exact .inr (.inr ⟨h1 _ (by simp), .inl ⟨pre, x, post, rfl, fun z hz => h1 z (by simp [hz]), h2⟩⟩)
    · exact .inr (.inr ⟨h1 _ (by simp), .inr ⟨fun z hz => h1 z (by simp [hz]), h2⟩⟩)
  · rintro (h | h | ⟨h, ⟨pre, x, post, rfl, h1, h2⟩ | ⟨h1, h2⟩⟩)
    · exact .inl ⟨[], rule, rules, rfl, by simp, .inl h⟩
    · exact .inl ⟨[], rule, rules, rfl, by simp, .inr h⟩
    · refine .inl ⟨rule :: pre, x, post, rfl, ?_, h2⟩
      intro z hz
      rcases List.mem_cons.mp hz with rfl | hz
      · exact h
      · exact h1 z hz
    · refine .inr ⟨?_, h2⟩
      intro z hz
      rcases List.mem_cons.mp hz with rfl | hz
      · exact h
      · exact h1 z hz

theorem unreadable_cons (env : MapEnv) (rule : Rule) (rules : List Rule) (p : Str) : Unreadable env (rule :: rules) p ↔
    rule.DigestFails env p .panic ∨ (rule.Declines env p ∧ Unreadable env rules p) := by
  constructor
  · rintro ⟨pre, x, post, e, h1, h2⟩
    cases pre with
    | nil => cases e; exact .inl h2
    | cons y pre =>
      cases e
      exact .inr ⟨h1 _ (by simp), pre, x, post, rfl, fun z hz => h1 z (by simp [hz]), h2⟩
  · rintro (h | ⟨h, pre, x, post, rfl, h1, h2⟩)
    · exact ⟨[], rule, rules, rfl, by simp, h⟩
    · refine ⟨rule :: pre, x, post, rfl, ?_, h2⟩
      intro z hz
      rcases List.mem_cons.mp hz with rfl | hz
      · exact h
      · exact h1 z hz

/-- The first answer is what the rules say. -/
theorem firstAnswer_rules {env : MapEnv} (hs : ∀ d, ∀ b ∈ env.sha512 d, b < 256) {rules : List Rule} :
    ∀ {gs : List Generator}, GensFor env rules gs → ∀ p,
    (firstAnswer env p (fileStrOf env p) gs = .panic ↔ Unreadable env rules p) ∧
    (firstAnswer env p (fileStrOf env p) gs ≠ .panic → ∀ r, MapsTo env rules p r ↔
      r = (match firstAnswer env p (fileStrOf env p) gs with | .ok x => x | _ => none).getD p) := by
  induction rules with
  | nil =>
    intro gs hg p
    cases gs with
    | cons => cases hg
    | nil =>
      refine ⟨⟨fun h => (by cases h), ?_⟩, ?_⟩
      · rintro ⟨pre, x, post, e, _⟩; cases pre <;> cases e
      · intro _ r
        constructor
        · rintro (⟨pre, x, post, e, _⟩ | ⟨_, h⟩)
          · cases pre <;> cases e
          · exact h
        · intro h; exact .inr ⟨by simp, h⟩
  | cons rule rules ih =>
    intro gs hg p
    cases gs with
    | nil => cases hg
    | cons g gs =>
      simp only [GensFor, List.map_cons, List.cons.injEq] at hg
      obtain ⟨i1, i2⟩ := ih hg.2 p
      obtain ⟨a1, a2, a3, a4⟩ := apply_rule hs hg.1 p
      rw [unreadable_cons]
      simp only [mapsTo_cons]
      rw [← a2, ← a4]
      simp only [← a1, ← a3]
      simp only [firstAnswer]
      cases hap : g.apply env p (fileStrOf env p) with
      | err m =>
        simp only [Res.bind_err]
        refine ⟨by simp, ?_⟩
        intro _ r
        simp
      | panic => simp
      | ok x =>
        simp only [Res.bind_ok]
        cases x with
        | some r' =>
          simp only
          refine ⟨by simp, ?_⟩
          intro _ r
          simp only [Res.ok.injEq, Option.some.injEq, Option.getD_some]
          constructor
          · rintro (h | ⟨⟨m, h⟩, _⟩ | ⟨h, _⟩)
            · exact h.symm
            · cases h
            · cases h
          · rintro rfl; exact .inl rfl
        | none =>
          simp only
          refine ⟨by rw [i1]; simp, ?_⟩
          intro hp r
          rw [← i2 hp r]
          simp

theorem gensFor_of_gens {env : MapEnv} {vars : List (Str × Str)} {es : List Entry} {gs : List Generator} (h : Gens env vars es gs) :
    GensFor env (es.map fun e => ⟨e.source, e.destination, e.files, vars⟩) gs := by
  unfold GensFor
  rw [List.map_map]
  exact h

/-- The mappings made from a configuration are its rules. -/
theorem new_configured {env : MapEnv} (ho : ∀ l, (env.order l).Perm l) {varArgs sources destinations : Option (List Str)}
    {file : Option Str} {o : Option (List Generator)} (h : new env varArgs sources destinations file = .ok o) :
    ∃ rules, Configured env varArgs sources destinations file rules ∧ GensFor env rules (o.getD []) := by
  obtain ⟨cli, a, b, c, h1, h2, _, h3, h4, h5, h6⟩ := C36_order env ho h
  have hcli : ∀ k x, cli.lookup k = some x ↔ LastVar (varArgs.getD []) k x := by
    cases varArgs with
    | some vs => exact (C36_variables vs).2 cli h1
    | none =>
      cases h1
      intro k x
      simp only [List.lookup_nil, Option.getD_none, reduceCtorEq, false_iff]
      rintro ⟨_, pre, post, e, _⟩
      simp at e
  have h6' := gensFor_of_gens h6
  rw [List.map_map] at h6'
  cases file with
  | none =>
    obtain ⟨rfl, rfl⟩ := h3 rfl
    refine ⟨_, ⟨cli, [], [], hcli, rfl, h5, fun _ => ⟨rfl, rfl⟩, fun f hf => by cases hf⟩, ?_⟩
    rw [h2]
    exact h6'
  | some f =>
    obtain ⟨data, m, vars, g1, g2, g3, g4, g5⟩ := h4 f rfl
    refine ⟨_, ⟨cli, (m.mappings.filter fun e => e.files ≠ []).map (fun e => ⟨e.source, e.destination, e.files, vars⟩),
      (m.mappings.filter fun e => e.files = []).map (fun e => ⟨e.source, e.destination, [], vars⟩), hcli, rfl, h5,
      (fun h => by cases h), ?_⟩, ?_⟩
    · intro f' hf
      cases hf
      exact ⟨data, m, vars, g1, g2, g3, rfl, rfl⟩
    · have hb : (m.mappings.filter fun e => e.files = []).map (fun e => (⟨e.source, e.destination, [], vars⟩ : Rule)) =
          (m.mappings.filter fun e => e.files = []).map (fun e => (⟨e.source, e.destination, e.files, vars⟩ : Rule)) := by
        apply List.map_congr_left
        intro e he
        have := (List.mem_filter.mp he).2
        simp only [decide_eq_true_eq] at this
        rw [this]
      rw [h2, hb]
      have ha := gensFor_of_gens g4
      have hb := gensFor_of_gens g5
      unfold GensFor at *
      rw [List.map_append, List.map_append, List.map_append, List.map_append, ha, hb]
      exact congrArg _ h6'

/-- **C37.** Whatever calls ran before or run at the same time, in any interleaving of lookups and insertions in the cache, every call
answers what the rules of the configuration say of its path, and panics exactly when the rule that applies needs the digest of a file that
exists and cannot be read.  (`hr`: a path and the same path without `\\?\` name the same file.) -/
theorem C37_answers {env : MapEnv} (hs : ∀ d, ∀ b ∈ env.sha512 d, b < 256) (ho : ∀ l, (env.order l).Perm l)
    (hr : ∀ p q, Seen env p q → env.read q = env.read p) (varArgs sources destinations : Option (List Str)) (file : Option Str)
    (mapping : Option (List Generator)) (hm : new env varArgs sources destinations file = .ok mapping) :
    ∃ rules, Configured env varArgs sources destinations file rules ∧
      ∀ s as, MapSteps env (mapping.getD []) ⟨[], []⟩ as s → ∀ p r, (p, r) ∈ as →
        (r = .panic ↔ Unreadable env rules p) ∧
        (r ≠ .panic → ∀ x, MapsTo env rules p x ↔ x = (match r with | .ok (some y) => y | _ => p)) := by
  obtain ⟨rules, h1, h2⟩ := new_configured ho hm
  refine ⟨rules, h1, ?_⟩
  intro s as hst p r hpr
  have hr' : ∀ f, env.read (fileStrOf env f) = env.read f := fun f => hr f _ ((seen_fileStrOf env f _).mpr rfl)
  have he := C37_cache_transparent hr' hst hpr
  obtain ⟨f1, f2⟩ := firstAnswer_rules hs h2 p
  subst he
  refine ⟨f1, fun hnp x => (f2 hnp x).trans ?_⟩
  generalize firstAnswer env p (fileStrOf env p) (mapping.getD []) = a
  cases a with
  | ok o => cases o <;> exact Iff.rfl
  | err m => exact Iff.rfl
  | panic => exact Iff.rfl

/-- Two calls for one path at the same time: both look in the empty cache, both search, and both answer the same; a third is answered from
the cache. -/
example : ∃ rules s, Configured sampleEnv none (some [str% "a"]) (some [str% "C{1}"]) none rules ∧
    MapsTo sampleEnv rules (str% "/foo/b.c") (str% "Cb.c") ∧ s.cache = [(str% "/foo/b.c", str% "Cb.c")] ∧
    ∃ gens, new sampleEnv none (some [str% "a"]) (some [str% "C{1}"]) none = .ok (some gens) ∧
      MapSteps sampleEnv gens ⟨[], []⟩ (List.replicate 3 (str% "/foo/b.c", .ok (some (str% "Cb.c")))) s := by
  obtain ⟨gens, hg⟩ : ∃ gens, new sampleEnv none (some [str% "a"]) (some [str% "C{1}"]) none = .ok (some gens) := ⟨_, rfl⟩
  have ha : firstAnswer sampleEnv (str% "/foo/b.c") (fileStrOf sampleEnv (str% "/foo/b.c")) gens = .ok (some (str% "Cb.c")) := by
    have : gens = match new sampleEnv none (some [str% "a"]) (some [str% "C{1}"]) none with | .ok (some g) => g | _ => [] := by rw [hg]
    rw [this]
    decide +kernel
  have hst : MapSteps sampleEnv gens ⟨[], []⟩ (List.replicate 3 (str% "/foo/b.c", .ok (some (str% "Cb.c"))))
      ⟨[(str% "/foo/b.c", str% "Cb.c")], []⟩ := by
    have s1 := (MapSteps.refl (env := sampleEnv) (gens := gens) ⟨[], []⟩).tail (.miss _ (str% "/foo/b.c") rfl)
    have s2 := s1.tail (.miss _ (str% "/foo/b.c") rfl)
    have s3 := s2.tail (.found _ [] [str% "/foo/b.c"] (str% "/foo/b.c") (str% "Cb.c") rfl ha)
    have s4 := s3.tail (.found _ [] [] (str% "/foo/b.c") (str% "Cb.c") rfl ha)
    exact s4.tail (.hit _ (str% "/foo/b.c") (str% "Cb.c") (by decide))
  obtain ⟨rules, h1, h2⟩ := C37_answers
    (by intro d b hb; simp only [sampleEnv, List.mem_map] at hb; obtain ⟨x, _, rfl⟩ := hb; omega)
    (fun l => List.reverse_perm l) (fun p q h => by rw [h.2 rfl]) none (some [str% "a"]) (some [str% "C{1}"]) none _ hg
  exact ⟨rules, _, h1, ((h2 _ _ hst _ _ List.mem_cons_self).2 (by simp) _).mpr rfl, rfl, gens, hg, hst⟩

end Mapping

namespace Dumper
open Mapping Reader ObjectInfo

/-- The answers a dump gets from the mappings made from a configuration: they are those of the rules, and asking panics exactly when the
rule that applies needs the digest of a file that exists and cannot be read. -/
theorem C79_rules (env : Env) (hs : ∀ d, ∀ b ∈ env.map.sha512 d, b < 256) (ho : ∀ l, (env.map.order l).Perm l)
    (varArgs sources destinations : Option (List Str)) (file : Option Str) (mapping : Option (List Generator))
    (hm : Mapping.new env.map varArgs sources destinations file = .ok mapping) :
    ∃ rules, Configured env.map varArgs sources destinations file rules ∧ ∀ platform o p,
      ((cenv env platform mapping o).src.mapPanics p = true ↔ Unreadable env.map rules p) ∧
      (¬ Unreadable env.map rules p → ∀ r, MapsTo env.map rules p r ↔ r = ((cenv env platform mapping o).src.mapping p).getD p) := by
  obtain ⟨rules, h1, h2⟩ := new_configured ho hm
  refine ⟨rules, h1, ?_⟩
  intro platform o p
  obtain ⟨f1, f2⟩ := firstAnswer_rules hs h2 p
  have e1 : (cenv env platform mapping o).src.mapPanics p = true ↔ firstAnswer env.map p (fileStrOf env.map p) (mapping.getD []) = .panic := by
    show mappingPanics env mapping p = true ↔ _
    cases mapping with
    | none => simp [mappingPanics, firstAnswer]
    | some gs =>
      simp only [mappingPanics, Option.getD_some]
      cases firstAnswer env.map p (fileStrOf env.map p) gs <;> simp
  refine ⟨e1.trans f1, ?_⟩
  intro hu r
  rw [f2 (fun h => hu (f1.mp h)) r]
  show _ ↔ r = (mappingFn env mapping p).getD p
  cases mapping with
  | none => simp [mappingFn, firstAnswer]
  | some gs => exact Iff.rfl

end Dumper

theorem Func.All.refers {Q : ByteSlice → FileInfo → Prop} {N : Name → Prop} {f : Func} (h : f.All Q N) {c : ByteSlice} {i : FileInfo}
    (hr : f.Refers c i) : Q c i := by
  induction hr with
  | here f l hl => cases h with | mk _ h _ _ => exact h l hl
  | inlined f g c i hg _ ih => cases h with | mk _ _ _ h => exact ih (h g hg)

theorem Func.All.of_refers {Q Q' : ByteSlice → FileInfo → Prop} {N : Name → Prop} {f : Func} (h : f.All Q N)
    (hq : ∀ c i, f.Refers c i → Q c i → Q' c i) : f.All Q' N := by
  induction h with
  | mk f hl hn hi ih =>
    exact .mk f (fun l h => hq _ _ (.here f l h) (hl l h)) hn (fun g hg => ih g hg fun c i hr => hq c i (.inlined f g c i hg hr))

/-- The universe of paths may be taken to be the paths referred to. -/
theorem ObjOk.referred {env : CEnv} {mem : Mem} {U : List Str} {V : List Name} {platform : Platform} {main : ObjInput}
    {fs : List (Option Func)} (h : ObjOk env mem U V platform main fs) :
    ∃ U', ObjOk env mem U' V platform main fs ∧ ∀ p ∈ U', ∃ g c i, some g ∈ fs ∧ Func.Refers g c i ∧ p = SourceFiles.getPath env.src c i := by
  classical
  let P : Str → Prop := fun p => ∃ g c i, some g ∈ fs ∧ Func.Refers g c i ∧ p = SourceFiles.getPath env.src c i
  refine ⟨U.filter fun p => decide (P p), ⟨h.functions, ⟨?_, h.input.names, h.input.sort, ?_⟩, h.exceptions, h.names, h.embedded⟩, ?_⟩
  · exact Nat.le_trans (List.length_filter_le _ _) h.input.paths
  · intro f hf
    refine (h.input.funcs f hf).of_refers ?_
    intro c i hr hq
    obtain ⟨q1, q2, q3⟩ := refOk_iff.mp hq
    exact refOk_iff.mpr ⟨q1, List.mem_filter.mpr ⟨q2, by simpa using ⟨f, c, i, hf, hr, rfl⟩⟩, q3⟩
  · intro p hp
    exact of_decide_eq_true (List.mem_filter.mp hp).2

namespace Dumper
open Mapping Reader ObjectInfo

/-- **C79 (partial).** With mappings made from a configuration, every FILE record of the printed symbol file names a source file that
the debug information refers to: it has the recorded path (C72), mapped by the first rule of the configuration that applies to it; a path
to which none applies, or for which the rule that applies needs the digest of a file that is not there, is left as it is.  Missing: a file
that exists and cannot be read makes the run panic (`C79_unreadable_witness`), and the rules are not used for a PE without usable PDB
(`C74_mingw_witness`). -/
theorem C79_file_records_partial (env : Env) (hs : ∀ d, ∀ b ∈ env.map.sha512 d, b < 256) (hord : ∀ l, (env.map.order l).Perm l)
    (varArgs sources destinations : Option (List Str)) (file : Option Str) (mapping : Option (List Generator))
    (hm : Mapping.new env.map varArgs sources destinations file = .ok mapping)
    (buf : Bytes) (pre filename arch : Str) (symbolServer : Option Str) (inlines : Bool) (w w' : Cache.World) (info : ObjectInfo)
    (hp : DirPart pre) (hn : ProperComp filename) (hsane : Sane env w.disk) (hpe : SanePe env buf)
    (h : getObjectInfo env buf (pre ++ filename) filename mapping arch symbolServer inlines w = (.ok info, w'))
    (hok : ∀ o name pe peName platform opts w', DumpedFrom env buf (pre ++ filename) filename arch symbolServer w o name pe peName platform opts w' →
      ∃ mem U V fs, ObjOk (cenv env platform (if opts then mapping else none) o) mem U V platform o fs)
    (extra : Option (List Str)) (hr : info.Readable (extra.getD [])) :
    ∃ rules o name pe peName platform opts text f fs, Configured env.map varArgs sources destinations file rules ∧
      DumpedFrom env buf (pre ++ filename) filename arch symbolServer w o name pe peName platform opts w' ∧ o.functions = .ok fs ∧
      info.display extra = .ok text ∧ readSymFile text = some f ∧
      ∀ i q, (i, q) ∈ f.files → ∃ g c r p, some g ∈ fs ∧ Func.Refers g c r ∧
        RecordedPath platform (OnHost env.os platform ∧ ¬ (o.format = .pe ∧ o.hasDebugInfo = true)) env.canon c r p ∧
        MapsTo env.map (if opts then rules else []) p q := by
  obtain ⟨rules, r1, r2⟩ := C79_rules env hs hord varArgs sources destinations file mapping hm
  obtain ⟨o, name, pe, peName, platform, opts, hd, hf⟩ := C81_sound env arch symbolServer hp hn hsane hpe mapping inlines h
  obtain ⟨mem, U, V, fs, ho⟩ := hok o name pe peName platform opts w' hd
  obtain ⟨U', ho', hU'⟩ := ho.referred
  obtain ⟨info', st, ps, seen, g1, g2, g3, g4, _, _, _, _, g5, _⟩ := fromObject_spec ho' (inlines && opts) name pe peName
  have hinfo : info' = info := by
    have : (Res.ok info' : Res ObjectInfo) = .ok info := by rw [← g1]; exact hf
    cases this; rfl
  subst hinfo
  obtain ⟨text, f, a1, a2, _, _, _, a6, _⟩ := read_display hr (fun e he =>
    (g2.inlines _ _ (SMap.get?_of_mem g2.sorted he)).2)
  refine ⟨rules, o, name, pe, peName, platform, opts, text, f, fs, r1, hd, ho'.functions, a1, a2, ?_⟩
  intro i q hq
  rw [a6] at hq
  have hq : q ∈ info'.files.getMapping := by
    have hsnd : ∀ (l : List Str) n, (i, q) ∈ enumFrom n l → q ∈ l := by
      intro l
      induction l with
      | nil => intro n h; cases h
      | cons a l ih =>
        intro n h
        rcases List.mem_cons.mp h with h | h
        · cases h; simp
        · exact List.mem_cons_of_mem _ (ih _ h)
    exact hsnd _ _ hq
  rw [g5] at hq
  have hq : q ∈ ps.map (mapped (cenv env platform (if opts then mapping else none) o).src) := by
    rw [← g4.src.ids_eq]; exact hq
  obtain ⟨p, hp, rfl⟩ := List.mem_map.mp hq
  obtain ⟨g, c, r, hg, href, rfl⟩ := hU' p (g4.inU p hp)
  refine ⟨g, c, r, _, hg, href, C72_source_path_partial env platform (if opts then mapping else none) o c r, ?_⟩
  cases opts with
  | false => exact .inr ⟨(fun x hx => by cases hx), rfl⟩
  | true =>
    obtain ⟨k1, k2⟩ := r2 platform o (SourceFiles.getPath (cenv env platform mapping o).src c r)
    refine (k2 ?_ _).mpr rfl
    intro hu
    have := (refOk_iff.mp ((ho'.input.funcs g hg).refers href)).2.2
    rw [if_pos rfl, k1.mpr hu] at this
    cases this

/-- The paths in the frames a user of the symbol file sees (C67) are the mapped ones. -/
theorem C79_frames (env : Env) (hs : ∀ d, ∀ b ∈ env.map.sha512 d, b < 256) (hord : ∀ l, (env.map.order l).Perm l)
    (varArgs sources destinations : Option (List Str)) (file : Option Str) (mapping : Option (List Generator))
    (hm : Mapping.new env.map varArgs sources destinations file = .ok mapping) (platform : Platform) (o : ObjInput)
    (path : ByteSlice → FileInfo → Str) (nameOf : Name → Str) (hpr : Printed (cenv env platform mapping o) path nameOf) :
    ∃ rules, Configured env.map varArgs sources destinations file rules ∧ ∀ c r p,
      RecordedPath platform (OnHost env.os platform ∧ ¬ (o.format = .pe ∧ o.hasDebugInfo = true)) env.canon c r p →
      ¬ Unreadable env.map rules p → ∀ q, MapsTo env.map rules p q ↔ path c r = q := by
  obtain ⟨rules, r1, r2⟩ := C79_rules env hs hord varArgs sources destinations file mapping hm
  refine ⟨rules, r1, ?_⟩
  intro c r p hp hu q
  rw [(r2 platform o p).2 hu q]
  have : RecordedPath (cenv env platform mapping o).src.platform ((cenv env platform mapping o).src.canonicalize = true)
      (cenv env platform mapping o).src.canon c r p := by
    have hhost : platform.isTarget env.os = true ↔ OnHost env.os platform := by
      cases env.os <;> cases platform <;> simp [Platform.isTarget, OnHost]
    have hcan : ((cenv env platform mapping o).src.canonicalize = true) =
        (OnHost env.os platform ∧ ¬ (o.format = .pe ∧ o.hasDebugInfo = true)) := by
      apply propext
      simp only [cenv, ObjectInfo.canonicalize]
      split
      · rename_i h; simp [h]
      · rename_i h; rw [hhost]; exact ⟨fun x => ⟨x, h⟩, fun x => x.1⟩
    rw [hcan]
    exact hp
  rw [hpr.path c r p this]
  exact eq_comm

/-! ### Examples -/

/-- Expressions match every path, with the path as group 1; `/c/y.c` exists but cannot be opened. -/
def lockedEnv : Env :=
  { exEnv with map := { Mapping.sampleEnv with
      regex := fun _ => some fun s => some fun n => if n = 1 then some s else none
      read := fun f => if f = str% "/c/y.c" then .panic else .err (str% "gone") } }

/-- The FILE records of a dumped ELF file with the mapping `x` to `dest`. -/
def filesWith (env : Env) (dest : Str) : Res (List Str) := do
  let m ← Mapping.new env.map none (some [str% "x"]) (some [dest]) none
  let info ← (getObjectInfo env [1] (str% "/d/a") (str% "a") m (str% "x86_64") none false (exWorld [])).1
  .ok info.files.getMapping

/-- **C79 is false for unreadable files**: a mapping with the digest of a source file that exists and cannot be opened makes the run
panic, where a missing file is only reported. -/
theorem C79_unreadable_witness : filesWith lockedEnv (str% "git:{1}:{digest}") = .panic ∧
    filesWith { lockedEnv with map := { lockedEnv.map with read := fun _ => .err (str% "gone") } } (str% "git:{1}:{digest}") =
      .ok [str% "/c/y.c"] := by decide +kernel

/-- The path is mapped, and kept if a group takes no part. -/
example : filesWith lockedEnv (str% "git:{1}") = .ok [str% "git:/c/y.c"] ∧
    filesWith lockedEnv (str% "git:{2}{digest}") = .ok [str% "/c/y.c"] := by decide +kernel

/-- The first rule that applies decides: the first of these needs a group that took no part. -/
example : MapsTo lockedEnv.map [⟨str% "x", str% "a{2}", [], []⟩, ⟨str% "x", str% "b{1}!", [], []⟩] (str% "/p") (str% "b/p!") := by
  have hseen : Seen lockedEnv.map (str% "/p") (str% "/p") := ⟨(fun h => by cases h), fun _ => rfl⟩
  have hnum : ∀ {c : Char} {n : Nat}, (c = '1' ∧ n = 1) ∨ (c = '2' ∧ n = 2) → Means [] [c] (.group n) := by
    rintro c n (⟨rfl, rfl⟩ | ⟨rfl, rfl⟩) <;>
      exact .group (by decide) (by decide) rfl ⟨_, .inl rfl, by decide, by decide, by decide, by decide⟩
  refine .inl ⟨[⟨str% "x", str% "a{2}", [], []⟩], ⟨str% "x", str% "b{1}!", [], []⟩, [], rfl, ?_, .inl ?_⟩
  · intro x hx
    cases List.mem_singleton.mp hx
    refine .inr ⟨_, 2, ⟨str% "a", str% "2", [], [], [], ⟨_, _, hseen, .inl rfl, rfl, rfl⟩, ⟨⟨rfl, ?_, by decide, ?_⟩, ?_⟩, by simp⟩, rfl⟩
    · simp [noPair_cons, NoPair.nil]
    · simp [NoPair.nil]
    · intro p hp
      cases List.mem_singleton.mp hp
      exact hnum (.inr ⟨rfl, rfl⟩)
  · refine ⟨_, str% "!", [(str% "b", str% "1", .group 1, str% "/p")], ⟨_, _, hseen, .inl rfl, rfl, rfl⟩, ⟨⟨rfl, ?_, by decide, ?_⟩, ?_⟩, ?_, rfl⟩
    · simp [noPair_cons, NoPair.nil]
    · simp [noPair_cons, NoPair.nil]
    · intro p hp
      cases List.mem_singleton.mp hp
      exact hnum (.inl ⟨rfl, rfl⟩)
    · intro p hp
      cases List.mem_singleton.mp hp
      exact .group rfl rfl

/-- The mapping made from `x` and `git:{1}`. -/
def gitMapping : Option (List Generator) :=
  match Mapping.new lockedEnv.map none (some [str% "x"]) (some [str% "git:{1}"]) none with
  | .ok m => m
  | _ => none

/-- C79 applied: the FILE record of an ELF file. -/
example : ∃ text f, (∃ info, getObjectInfo lockedEnv [1] (str% "/d/" ++ str% "a") (str% "a") gitMapping (str% "x86_64") none false (exWorld []) =
      (.ok info, exWorld []) ∧ info.display none = .ok text) ∧ readSymFile text = some f ∧
    ∀ i q, (i, q) ∈ f.files → ∃ p, MapsTo lockedEnv.map [⟨str% "x", str% "git:{1}", [], []⟩] p q := by
  obtain ⟨info, hi⟩ : ∃ info, getObjectInfo lockedEnv [1] (str% "/d/" ++ str% "a") (str% "a") gitMapping (str% "x86_64") none false (exWorld []) =
      (.ok info, exWorld []) := ⟨_, rfl⟩
  have hopts : ∀ {o name pe peName platform opts w'}, DumpedFrom lockedEnv [1] (str% "/d/" ++ str% "a") (str% "a") (str% "x86_64") none (exWorld [])
      o name pe peName platform opts w' → o = exObj .elf (str% "E1") (str% "x86_64") (some (str% "dir/lib.so")) ∧ platform = .linux ∧ opts = true := by
    intro o name pe peName platform opts w' h
    cases h with
    | elf hk h => cases h; exact ⟨rfl, rfl, rfl⟩
    | machoOnly hk => cases hk
    | machoOf _ _ hk => cases hk
    | pdb hk => cases hk
    | pdbPe _ _ _ _ hk => cases hk
    | pePdb _ _ _ _ _ _ _ hk => cases hk
    | pe _ _ _ _ _ hk => cases hk
  obtain ⟨rules, o, name, pe, peName, platform, opts, text, f, fs, h1, h2, h3, h4, h5, h6⟩ := C79_file_records_partial lockedEnv
    (by intro d b hb; simp only [lockedEnv, Mapping.sampleEnv, List.mem_map] at hb; obtain ⟨x, _, rfl⟩ := hb; omega)
    (fun l => List.reverse_perm l) none (some [str% "x"]) (some [str% "git:{1}"]) none gitMapping rfl [1] (str% "/d/") (str% "a") (str% "x86_64")
    none false (exWorld []) (exWorld []) info (.inr rfl) (by unfold ProperComp; decide) (exSane rfl rfl) (fun pe rec h => by cases h) hi (by
      intro o name pe peName platform opts w' h
      obtain ⟨rfl, rfl, rfl⟩ := hopts h
      · refine ⟨sampleMem, sampleU, sampleV, [some mB1], rfl, ⟨by decide, by decide, sampleSort, ?_⟩, (by intro es h; cases h),
          (fun h => by cases h), embeddedInside_of_kind (by intro l h; cases h)⟩
        intro f hf
        simp only [List.mem_cons, Option.some.injEq, List.not_mem_nil, or_false] at hf
        subst hf
        refine .mk _ (fun l hl => ?_) (fun g hg => by cases hg) (fun g hg => by cases hg)
        simp only [Func.lines, mB1, List.mem_cons, List.not_mem_nil, or_false] at hl
        subst hl
        exact refOk_iff.mpr ⟨(sampleRef (f := sampleFile3) (by simp)).1, by decide +kernel, by decide +kernel⟩) none (by
      cases hi
      refine ⟨by decide +kernel, by decide +kernel, by decide +kernel, by decide +kernel, by decide +kernel, by decide +kernel, ?_, ?_, ?_, ?_, ?_⟩
      · intro c hc; cases hc
      · intro c hc; cases hc
      · simp
      · simp
      · exact ⟨[str% "CFI 1"], by decide +kernel, by decide +kernel⟩)
  refine ⟨text, f, ⟨info, hi, h4⟩, h5, ?_⟩
  intro i q hq
  obtain ⟨_, _, _, p, _, _, _, hp⟩ := h6 i q hq
  rw [(hopts h2).2.2, if_pos rfl] at hp
  obtain ⟨cli, a, b, e1, rfl, _, e2, _⟩ := h1
  obtain ⟨rfl, rfl⟩ := e2 rfl
  have hcli : cli = [] := by
    cases cli with
    | nil => rfl
    | cons x cli =>
      obtain ⟨_, pre, post, e, _⟩ := (e1 x.1 x.2).mp (by obtain ⟨k, v⟩ := x; simp)
      simp at e
  subst hcli
  exact ⟨p, hp⟩

end Dumper
end DumpSyms
