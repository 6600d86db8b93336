import Verif.Spec.MapErrors
import Verif.Props.Mapping
/-!
# The errors about path mappings
-/
namespace DumpSyms
namespace Mapping

theorem means_congr {vars vars' : List (Str × Str)} (h : ∀ k, vars.lookup k = vars'.lookup k) {a : Str} {k : ActionKind}
    (hm : Means vars a k) : Means vars' a k := by
  cases hm with
  | upper => exact .upper
  | lower => exact .lower
  | var h1 h2 h3 => exact .var h1 h2 (h _ ▸ h3)
  | group h1 h2 h3 h4 => exact .group h1 h2 (h _ ▸ h3) h4

theorem pairFine_congr {env : MapEnv} {vars vars' : List (Str × Str)} (h : ∀ k, vars.lookup k = vars'.lookup k) {s d : Str}
    (hp : PairFine env vars s d) : PairFine env vars' s d := by
  obtain ⟨re, pairs, tail, h1, h2, h3⟩ := hp
  exact ⟨re, pairs, tail, h1, h2, fun p hp => (h3 p hp).imp fun k hk => means_congr h hk⟩

theorem pairError_congr {env : MapEnv} {vars vars' : List (Str × Str)} (h : ∀ k, vars.lookup k = vars'.lookup k) {s d m : Str}
    (hp : PairError env vars s d m) : PairError env vars' s d m := by
  cases hp with
  | regex h1 => exact .regex h1
  | action re before l bad after tail h1 h2 h3 h4 =>
    exact .action re before l bad after tail h1 h2 (fun p hp => (h3 p hp).imp fun k hk => means_congr h hk)
      fun k hk => h4 k (means_congr (fun x => (h x).symm) hk)

theorem firstError_congr {env : MapEnv} {vars vars' : List (Str × Str)} (h : ∀ k, vars.lookup k = vars'.lookup k) {ps : List (Str × Str)}
    {m : Str} (hp : FirstError env vars ps m) : FirstError env vars' ps m := by
  obtain ⟨before, s, d, after, h1, h2, h3⟩ := hp
  exact ⟨before, s, d, after, h1, fun p hp => pairFine_congr h (h2 p hp), pairError_congr h h3⟩

theorem generator_ok_iff {env : MapEnv} {vars : List (Str × Str)} {s d : Str} {files : List Str} :
    (∃ g, Generator.new env s d vars files = .ok g) ↔ PairFine env vars s d := by
  cases hr : env.regex s with
  | none =>
    constructor
    · rintro ⟨g, hg⟩
      simp [Generator.new, hr] at hg
    · rintro ⟨re, _, _, h, _⟩
      rw [hr] at h; cases h
  | some re =>
    constructor
    · intro h
      obtain ⟨pairs, tail, hc⟩ := (C33_cut d).1
      exact ⟨re, pairs, tail, hr, hc, (C33_rejects env vars files hr hc).1.mp h⟩
    · rintro ⟨_, pairs, tail, _, hc, hp⟩
      exact (C33_rejects env vars files hr hc).1.mpr hp

theorem generator_err_iff {env : MapEnv} {vars : List (Str × Str)} {s d m : Str} {files : List Str} :
    Generator.new env s d vars files = .err m ↔ PairError env vars s d m := by
  cases hr : env.regex s with
  | none =>
    constructor
    · intro h
      simp [Generator.new, hr] at h
      subst h
      exact .regex hr
    · intro h
      cases h with
      | regex => simp [Generator.new, hr]
      | action re _ _ _ _ _ h => rw [hr] at h; cases h
  | some re =>
    constructor
    · intro h
      obtain ⟨pairs, tail, hc⟩ := (C33_cut d).1
      rcases pieces_or_bad vars pairs with ⟨t, rfl, ht⟩ | ⟨t, l, bad, rest, rfl, ht, hb⟩
      · obtain ⟨acts, h', _⟩ := new_ok env files t hr hc ht
        rw [h'] at h; cases h
      · have hb' : ∀ p ∈ t.map (fun p => (p.1, p.2.1)), ∃ k, Means vars p.2 k := fun p hp => by
          obtain ⟨q, hq, rfl⟩ := List.mem_map.mp hp
          exact ⟨_, ht q hq⟩
        have := (C33_rejects env vars files hr hc).2 _ l bad rest rfl hb' hb
        rw [h] at this
        cases this
        exact .action re _ l bad rest tail hr hc hb' hb
    · intro h
      cases h with
      | regex h => rw [hr] at h; cases h
      | action re before l bad after tail h1 h2 h3 h4 => exact (C33_rejects env vars files hr h2).2 before l bad after rfl h3 h4

/-- Running over the mappings in order: what the first wrong one says. -/
theorem firstError_cons {env : MapEnv} {vars : List (Str × Str)} {s d : Str} {ps : List (Str × Str)} {m : Str} :
    FirstError env vars ((s, d) :: ps) m ↔ PairError env vars s d m ∨ PairFine env vars s d ∧ FirstError env vars ps m := by
  constructor
  · rintro ⟨before, s', d', after, h1, h2, h3⟩
    cases before with
    | nil => cases h1; exact .inl h3
    | cons b bs =>
      cases h1
      exact .inr ⟨h2 _ List.mem_cons_self, bs, s', d', after, rfl, fun p hp => h2 p (List.mem_cons_of_mem _ hp), h3⟩
  · rintro (h | ⟨h, before, s', d', after, rfl, h2, h3⟩)
    · exact ⟨[], s, d, ps, rfl, by simp, h⟩
    · exact ⟨(s, d) :: before, s', d', after, rfl, List.forall_mem_cons.mpr ⟨h, h2⟩, h3⟩

theorem firstError_nil {env : MapEnv} {vars : List (Str × Str)} {m : Str} : ¬ FirstError env vars [] m := by
  rintro ⟨before, s', d', after, h1, _⟩
  cases before <;> cases h1

theorem pairFine_no_error {env : MapEnv} {vars : List (Str × Str)} {s d m : Str} (h : PairFine env vars s d) : ¬ PairError env vars s d m := by
  intro he
  obtain ⟨g, hg⟩ := (generator_ok_iff (files := [])).mpr h
  have := (generator_err_iff (files := [])).mpr he
  rw [hg] at this; cases this

theorem generator_no_panic {env : MapEnv} {vars : List (Str × Str)} {s d : Str} {files : List Str} :
    Generator.new env s d vars files ≠ .panic := C35_parse_no_panic env s d vars files

theorem pairsLoop_iff {env : MapEnv} {vars : List (Str × Str)} (ss ds : List Str) (out : List Generator) :
    ((∃ a, pairsLoop env vars ss ds out = .ok a) ↔ ∀ p ∈ ss.zip ds, PairFine env vars p.1 p.2) ∧
      ∀ m, pairsLoop env vars ss ds out = .err m ↔ FirstError env vars (ss.zip ds) m := by
  induction ss generalizing ds out with
  | nil => simp [pairsLoop, firstError_nil]
  | cons s ss ih =>
    cases ds with
    | nil => simp [pairsLoop, firstError_nil]
    | cons d ds =>
      rw [pairsLoop, List.zip_cons_cons]
      cases hg : Generator.new env s d vars [] with
      | panic => exact absurd hg generator_no_panic
      | err e =>
        have he := generator_err_iff.mp hg
        have hf : ¬ PairFine env vars s d := fun h => pairFine_no_error h he
        refine ⟨by simp [hf], fun m => ?_⟩
        rw [firstError_cons, ← generator_err_iff (files := []), hg]
        simp [hf]
      | ok g =>
        have hf := generator_ok_iff.mp ⟨g, hg⟩
        obtain ⟨i1, i2⟩ := ih ds (out ++ [g])
        refine ⟨by simpa [hf] using i1, fun m => ?_⟩
        rw [firstError_cons]
        simp only [Res.bind_ok, hf, pairFine_no_error hf, false_or, true_and]
        exact i2 m

theorem entriesLoop_iff {env : MapEnv} {vars : List (Str × Str)} (es : List Entry) (out noFiles : List Generator) :
    ((∃ a, entriesLoop env vars es out noFiles = .ok a) ↔ ∀ p ∈ es.map fun e => (e.source, e.destination), PairFine env vars p.1 p.2) ∧
      ∀ m, entriesLoop env vars es out noFiles = .err m ↔ FirstError env vars (es.map fun e => (e.source, e.destination)) m := by
  induction es generalizing out noFiles with
  | nil => simp [entriesLoop, firstError_nil]
  | cons e es ih =>
    rw [entriesLoop, List.map_cons]
    cases hg : Generator.new env e.source e.destination vars e.files with
    | panic => exact absurd hg generator_no_panic
    | err x =>
      have he := generator_err_iff.mp hg
      have hf : ¬ PairFine env vars e.source e.destination := fun h => pairFine_no_error h he
      refine ⟨by simp [hf], fun m => ?_⟩
      rw [firstError_cons, ← generator_err_iff (files := e.files), hg]
      simp [hf]
    | ok g =>
      have hf := generator_ok_iff.mp ⟨g, hg⟩
      simp only [Res.bind_ok]
      have key : ∀ out noFiles, ((∃ a, entriesLoop env vars es out noFiles = .ok a) ↔
          ∀ p ∈ (e.source, e.destination) :: es.map (fun e => (e.source, e.destination)), PairFine env vars p.1 p.2) ∧
          ∀ m, entriesLoop env vars es out noFiles = .err m ↔
            FirstError env vars ((e.source, e.destination) :: es.map fun e => (e.source, e.destination)) m := by
        intro out noFiles
        obtain ⟨i1, i2⟩ := ih out noFiles
        refine ⟨by rw [i1, List.forall_mem_cons]; simp only [hf, true_and], fun m => ?_⟩
        rw [firstError_cons, i2 m]
        simp only [hf, pairFine_no_error hf, false_or, true_and]
      split
      · exact key _ _
      · exact key _ _

theorem getVariables_err_iff {variables : Option (List Str)} {m : Str} : getVariables variables = .err m ↔
    ∃ before v after, variables.getD [] = before ++ v :: after ∧ (∀ x ∈ before, '=' ∈ x) ∧ '=' ∉ v ∧
      m = str% "Invalid pair " ++ v ++ str% ": must be var=value" := by
  cases variables with
  | none =>
    constructor
    · intro h; cases h
    · rintro ⟨before, v, after, h, _⟩
      cases before <;> cases h
  | some vs =>
    simp only [getVariables, Option.getD_some]
    generalize ([] : List (Str × Str)) = acc
    induction vs generalizing acc with
    | nil =>
      constructor
      · intro h; cases h
      · rintro ⟨before, v, after, h, _⟩
        cases before <;> cases h
    | cons v vs ih =>
      rw [variablesLoop]
      cases hs : splitEq v with
      | none =>
        have hv := splitEq_none.mp hs
        constructor
        · intro h
          simp only [Res.err.injEq] at h
          exact ⟨[], v, vs, rfl, by simp, hv, h.symm⟩
        · rintro ⟨before, v', after, h, h2, h3, rfl⟩
          cases before with
          | nil => cases h; rfl
          | cons b bs =>
            cases h
            exact absurd (h2 _ List.mem_cons_self) hv
      | some p =>
        obtain ⟨k, x⟩ := p
        have hv : '=' ∈ v := by rw [(splitEq_some.mp hs).1]; simp
        simp only
        rw [ih]
        constructor
        · rintro ⟨before, v', after, rfl, h2, h3, h4⟩
          exact ⟨v :: before, v', after, rfl, by simpa using ⟨hv, h2⟩, h3, h4⟩
        · rintro ⟨before, v', after, h, h2, h3, h4⟩
          cases before with
          | nil => cases h; exact absurd hv h3
          | cons b bs =>
            cases h
            exact ⟨bs, v', after, rfl, fun y hy => h2 y (List.mem_cons_of_mem _ hy), h3, h4⟩

theorem getVariables_no_panic {variables : Option (List Str)} : getVariables variables ≠ .panic := by
  cases variables with
  | none => intro h; cases h
  | some vs => exact variablesLoop_no_panic vs []

/-- The variables read, and the only values they can have. -/
theorem getVariables_cli {variables : Option (List Str)} {cli : List (Str × Str)} (h : getVariables variables = .ok cli) :
    CliVars variables cli ∧ (cli.map (·.1)).Nodup := by
  cases variables with
  | none =>
    cases h
    refine ⟨⟨by simp, fun k x => ⟨(fun h => by cases h), ?_⟩⟩, List.nodup_nil⟩
    rintro ⟨_, pre, post, h, _⟩
    cases pre <;> cases h
  | some vs => exact ⟨⟨(C36_variables vs).1.mp ⟨cli, h⟩, (C36_variables vs).2 cli h⟩, (variablesLoop_ok h List.nodup_nil).1⟩

theorem cliVars_ok {variables : Option (List Str)} {cli : List (Str × Str)} (h : CliVars variables cli) :
    ∃ cli', getVariables variables = .ok cli' ∧ ∀ k, cli.lookup k = cli'.lookup k := by
  cases hg : getVariables variables with
  | panic => exact absurd hg getVariables_no_panic
  | err m =>
    obtain ⟨before, v, after, h1, _, h3, _⟩ := getVariables_err_iff.mp hg
    exact absurd (h.1 v (by rw [h1]; simp)) h3
  | ok cli' =>
    refine ⟨cli', rfl, fun k => ?_⟩
    have h' := (getVariables_cli hg).1.2
    cases hl : cli.lookup k with
    | some x => exact ((h' k x).mpr ((h.2 k x).mp hl)).symm
    | none =>
      cases hl' : cli'.lookup k with
      | none => rfl
      | some x =>
        have := (h.2 k x).mpr ((h' k x).mp hl')
        rw [hl] at this; cases this

theorem fileHas_congr {env : MapEnv} {cli cli' : List (Str × Str)} (h : ∀ k, cli.lookup k = cli'.lookup k) {f : Str}
    {vars ps : List (Str × Str)} (hf : FileHas env cli f vars ps) : FileHas env cli' f vars ps := by
  obtain ⟨data, m, h1, h2, h3, h4⟩ := hf
  exact ⟨data, m, h1, h2, fun k => by rw [h3, h], h4⟩

theorem fileFine_congr {env : MapEnv} {cli cli' : List (Str × Str)} (h : ∀ k, cli.lookup k = cli'.lookup k) {file : Option Str}
    (hf : FileFine env cli file) : FileFine env cli' file := by
  intro f hfile
  obtain ⟨vars, ps, h1, h2⟩ := hf f hfile
  exact ⟨vars, ps, fileHas_congr h h1, h2⟩

theorem fileHas_unique {env : MapEnv} {cli : List (Str × Str)} {f : Str} {vars ps vars' ps' : List (Str × Str)}
    (h : FileHas env cli f vars ps) (h' : FileHas env cli f vars' ps') : ps = ps' ∧ ∀ k, vars.lookup k = vars'.lookup k := by
  obtain ⟨data, m, h1, h2, h3, h4⟩ := h
  obtain ⟨data', m', h1', h2', h3', h4'⟩ := h'
  rw [h1] at h1'
  cases h1'
  rw [h2] at h2'
  cases h2'
  exact ⟨h4.trans h4'.symm, fun k => (h3 k).trans (h3' k).symm⟩

theorem file_iff (env : MapEnv) (ho : ∀ l, (env.order l).Perm l) {cli : List (Str × Str)} (hn : (cli.map (·.1)).Nodup) (file : Option Str) :
    ((∃ a, getMappingsFromFile env cli file [] = .ok a) ↔ FileFine env cli file) ∧
    ∀ m, getMappingsFromFile env cli file [] = .err m ↔ ∃ f, file = some f ∧ (env.read f = .err m ∨
      (∃ data, env.read f = .ok data ∧ env.json data = none ∧ m = str% "json") ∨
      ∃ vars ps, FileHas env cli f vars ps ∧ FirstError env vars ps m) := by
  cases file with
  | none =>
    refine ⟨⟨(fun _ f h => by cases h), fun _ => ⟨[], rfl⟩⟩, fun m => ⟨(fun h => by cases h), ?_⟩⟩
    rintro ⟨f, h, _⟩
    cases h
  | some f =>
    simp only [getMappingsFromFile, MappingsFile.new]
    cases hr : env.read f with
    | panic =>
      refine ⟨⟨?_, ?_⟩, fun m => ⟨(fun h => by cases h), ?_⟩⟩
      · rintro ⟨a, h⟩; cases h
      · intro h
        obtain ⟨vars, ps, ⟨data, _, h1, _⟩, _⟩ := h f rfl
        rw [hr] at h1; cases h1
      · rintro ⟨f', rfl', h⟩
        cases rfl'
        rcases h with h | ⟨data, h, _⟩ | ⟨vars, ps, ⟨data, _, h1, _⟩, _⟩
        · rw [hr] at h; cases h
        · rw [hr] at h; cases h
        · rw [hr] at h1; cases h1
    | err e =>
      refine ⟨⟨?_, ?_⟩, fun m => ⟨fun h => ?_, ?_⟩⟩
      · rintro ⟨a, h⟩; cases h
      · intro h
        obtain ⟨vars, ps, ⟨data, _, h1, _⟩, _⟩ := h f rfl
        rw [hr] at h1; cases h1
      · cases h; exact ⟨f, rfl, .inl hr⟩
      · rintro ⟨f', rfl', h⟩
        cases rfl'
        rcases h with h | ⟨data, h, _⟩ | ⟨vars, ps, ⟨data, _, h1, _⟩, _⟩
        · rw [hr] at h; cases h; rfl
        · rw [hr] at h; cases h
        · rw [hr] at h1; cases h1
    | ok data =>
      simp only [Res.bind_ok]
      cases hj : env.json data with
      | none =>
        refine ⟨⟨?_, ?_⟩, fun m => ⟨fun h => ?_, ?_⟩⟩
        · rintro ⟨a, h⟩; cases h
        · intro h
          obtain ⟨vars, ps, ⟨data', _, h1, h2, _⟩, _⟩ := h f rfl
          rw [hr] at h1; cases h1
          rw [hj] at h2; cases h2
        · cases h; exact ⟨f, rfl, .inr (.inl ⟨data, hr, hj, rfl⟩)⟩
        · rintro ⟨f', rfl', h⟩
          cases rfl'
          rcases h with h | ⟨data', h, _, rfl⟩ | ⟨vars, ps, ⟨data', _, h1, h2, _⟩, _⟩
          · rw [hr] at h; cases h
          · rfl
          · rw [hr] at h1; cases h1
            rw [hj] at h2; cases h2
      | some mf =>
        simp only [Res.bind_ok]
        have hhas : FileHas env cli f ((env.order cli).foldl (fun acc p => insertVar acc p.1 p.2) mf.variables)
            (mf.mappings.map fun e => (e.source, e.destination)) :=
          ⟨data, mf, hr, hj, fun k => by rw [foldl_insertVar (((ho cli).map _).nodup_iff.mpr hn), lookup_perm hn (ho cli)], rfl⟩
        generalize (env.order cli).foldl (fun acc p => insertVar acc p.1 p.2) mf.variables = vars at hhas
        obtain ⟨e1, e2⟩ := entriesLoop_iff (env := env) (vars := vars) mf.mappings [] []
        refine ⟨?_, fun m => ?_⟩
        · have : (∃ a, (entriesLoop env vars mf.mappings [] [] >>= fun x => match x with | (out, noFiles) => Res.ok (out ++ noFiles)) = .ok a) ↔
              ∃ a, entriesLoop env vars mf.mappings [] [] = .ok a := by
            cases entriesLoop env vars mf.mappings [] [] <;> simp
          refine this.trans (e1.trans ⟨fun h f' hf' => ?_, fun h => ?_⟩)
          · cases hf'; exact ⟨vars, _, hhas, h⟩
          · obtain ⟨vars', ps', h1, h2⟩ := h f rfl
            obtain ⟨u1, u2⟩ := fileHas_unique hhas h1
            subst u1
            exact fun p hp => pairFine_congr (fun k => (u2 k).symm) (h2 p hp)
        · have : (entriesLoop env vars mf.mappings [] [] >>= fun x => match x with | (out, noFiles) => Res.ok (out ++ noFiles)) = .err m ↔
              entriesLoop env vars mf.mappings [] [] = .err m := by
            cases entriesLoop env vars mf.mappings [] [] <;> simp
          refine this.trans ((e2 m).trans ⟨fun h => ⟨f, rfl, .inr (.inr ⟨vars, _, hhas, h⟩)⟩, ?_⟩)
          rintro ⟨f', hf', h⟩
          cases hf'
          rcases h with h | ⟨data', h, h2, _⟩ | ⟨vars', ps', h1, h2⟩
          · rw [hr] at h; cases h
          · rw [hr] at h; cases h
            rw [hj] at h2; cases h2
          · obtain ⟨u1, u2⟩ := fileHas_unique hhas h1
            subst u1
            exact firstError_congr (fun k => (u2 k).symm) h2

theorem lists_iff (env : MapEnv) (cli : List (Str × Str)) (sources destinations : Option (List Str)) (out : List Generator) :
    ((∃ a, getMappings env cli sources destinations out = .ok a) ↔ (sources.getD []).length = (destinations.getD []).length ∧
      (sources = none ↔ destinations = none) ∧ ∀ p ∈ (sources.getD []).zip (destinations.getD []), PairFine env cli p.1 p.2) ∧
    ∀ m, getMappings env cli sources destinations out = .err m ↔
      ((sources.getD []).length ≠ (destinations.getD []).length ∧
        m = str% "mapping-src and mapping-dest must have the same number of elements") ∨
      ((sources.getD []).length = (destinations.getD []).length ∧ FirstError env cli ((sources.getD []).zip (destinations.getD [])) m) := by
  unfold getMappings
  cases sources with
  | none =>
    cases destinations with
    | none => simp [firstError_nil]
    | some ds =>
      cases ds with
      | nil => simp [firstError_nil]
      | cons d ds => simp [eq_comm]
  | some ss =>
    cases destinations with
    | none =>
      cases ss with
      | nil => simp [firstError_nil]
      | cons s ss => simp [eq_comm]
    | some ds =>
      obtain ⟨p1, p2⟩ := pairsLoop_iff (env := env) (vars := cli) ss ds out
      by_cases hl : ss.length = ds.length
      · simp only [Option.isNone_some, Bool.false_and, Bool.false_eq_true, if_false, Option.map_some, Option.getD_some, hl, ne_eq, not_true_eq_false, reduceCtorEq, iff_self, true_and, false_and, false_or]
        exact ⟨p1, p2⟩
      · simp [hl, eq_comm]

/-- What the configuration of the path mappings says, if something. -/
theorem new_iff (env : MapEnv) (ho : ∀ l, (env.order l).Perm l) (variables sources destinations : Option (List Str)) (file : Option Str) :
    ((∃ g, new env variables sources destinations file = .ok g) ↔ OptionsFine env variables sources destinations file) ∧
    ∀ m, new env variables sources destinations file = .err m ↔ OptionError env variables sources destinations file m := by
  rw [new]
  cases hv : getVariables variables with
  | panic => exact absurd hv getVariables_no_panic
  | err e =>
    obtain ⟨before, v, after, h1, h2, h3, rfl⟩ := getVariables_err_iff.mp hv
    have hno : ∀ cli, ¬ CliVars variables cli := fun cli h => h3 (h.1 v (by rw [h1]; simp))
    refine ⟨⟨?_, ?_⟩, fun m => ⟨fun h => ?_, fun h => ?_⟩⟩
    · rintro ⟨g, h⟩; cases h
    · rintro ⟨cli, h, _⟩; exact absurd h (hno cli)
    · cases h; exact .badVar before v after h1 h2 h3
    · cases h with
      | badVar b v' a k1 k2 k3 => rw [← hv, getVariables_err_iff.mpr ⟨b, v', a, k1, k2, k3, rfl⟩]; rfl
      | read cli f m h => exact absurd h (hno _)
      | json cli f d h => exact absurd h (hno _)
      | entry cli vars f ps m h => exact absurd h (hno _)
      | counts cli h => exact absurd h (hno _)
      | pair cli m h => exact absurd h (hno _)
  | ok cli =>
    obtain ⟨hcli, hn⟩ := getVariables_cli hv
    have hsame : ∀ cli', CliVars variables cli' → ∀ k, cli'.lookup k = cli.lookup k := by
      intro cli' h
      obtain ⟨c, h1, h2⟩ := cliVars_ok h
      rw [hv] at h1; cases h1
      exact h2
    obtain ⟨f1, f2⟩ := file_iff env ho hn file
    rw [Res.bind_ok]
    cases hf : getMappingsFromFile env cli file [] with
    | panic =>
      have hno : ¬ FileFine env cli file := fun h => by obtain ⟨a, h⟩ := f1.mpr h; rw [hf] at h; cases h
      refine ⟨⟨?_, ?_⟩, fun m => ⟨(fun h => by cases h), fun h => ?_⟩⟩
      · rintro ⟨g, h⟩; cases h
      · rintro ⟨cli', h1, h2, _⟩; exact absurd (fileFine_congr (hsame cli' h1) h2) hno
      · have : getMappingsFromFile env cli file [] = .err m ∨ FileFine env cli file := by
          cases h with
          | badVar b v' a k1 k2 k3 => exact absurd (hcli.1 v' (by rw [k1]; simp)) k3
          | read cli' f m h h1 h2 => exact .inl ((f2 _).mpr ⟨f, h1, .inl h2⟩)
          | json cli' f d h h1 h2 h3 => exact .inl ((f2 _).mpr ⟨f, h1, .inr (.inl ⟨d, h2, h3, rfl⟩)⟩)
          | entry cli' vars f ps m h h1 h2 h3 => exact .inl ((f2 _).mpr ⟨f, h1, .inr (.inr ⟨vars, ps, fileHas_congr (hsame _ h) h2, h3⟩)⟩)
          | counts cli' h h1 => exact .inr (fileFine_congr (hsame _ h) h1)
          | pair cli' m h h1 => exact .inr (fileFine_congr (hsame _ h) h1)
        rcases this with h | h
        · rw [hf] at h; cases h
        · exact absurd h hno
    | err e =>
      have hno : ¬ FileFine env cli file := fun h => by obtain ⟨a, h⟩ := f1.mpr h; rw [hf] at h; cases h
      refine ⟨⟨?_, ?_⟩, fun m => ⟨fun h => ?_, fun h => ?_⟩⟩
      · rintro ⟨g, h⟩; cases h
      · rintro ⟨cli', h1, h2, _⟩; exact absurd (fileFine_congr (hsame cli' h1) h2) hno
      · cases h
        obtain ⟨f, h1, h | ⟨d, h2, h3, rfl⟩ | ⟨vars, ps, h2, h3⟩⟩ := (f2 _).mp hf
        · exact .read cli f _ hcli h1 h
        · exact .json cli f d hcli h1 h2 h3
        · exact .entry cli vars f ps _ hcli h1 h2 h3
      · have : getMappingsFromFile env cli file [] = .err m ∨ FileFine env cli file := by
          cases h with
          | badVar b v' a k1 k2 k3 => exact absurd (hcli.1 v' (by rw [k1]; simp)) k3
          | read cli' f m h h1 h2 => exact .inl ((f2 _).mpr ⟨f, h1, .inl h2⟩)
          | json cli' f d h h1 h2 h3 => exact .inl ((f2 _).mpr ⟨f, h1, .inr (.inl ⟨d, h2, h3, rfl⟩)⟩)
          | entry cli' vars f ps m h h1 h2 h3 => exact .inl ((f2 _).mpr ⟨f, h1, .inr (.inr ⟨vars, ps, fileHas_congr (hsame _ h) h2, h3⟩)⟩)
          | counts cli' h h1 => exact .inr (fileFine_congr (hsame _ h) h1)
          | pair cli' m h h1 => exact .inr (fileFine_congr (hsame _ h) h1)
        rcases this with h | h
        · rw [hf] at h; cases h; rfl
        · exact absurd h hno
    | ok ab =>
      have hfine := f1.mp ⟨ab, hf⟩
      have hnoerr : ∀ m, getMappingsFromFile env cli file [] ≠ .err m := fun m h => by rw [hf] at h; cases h
      rw [Res.bind_ok]
      obtain ⟨l1, l2⟩ := lists_iff env cli sources destinations ab
      refine ⟨?_, fun m => ?_⟩
      · have : (∃ g, (getMappings env cli sources destinations ab >>= fun m => Res.ok (if m.isEmpty = true then none else some m)) = .ok g) ↔
            ∃ a, getMappings env cli sources destinations ab = .ok a := by
          cases getMappings env cli sources destinations ab <;> simp
        refine this.trans (l1.trans ⟨fun h => ⟨cli, hcli, hfine, h.1, h.2.1, h.2.2⟩, ?_⟩)
        rintro ⟨cli', h1, _, h3, h4, h5⟩
        exact ⟨h3, h4, fun p hp => pairFine_congr (hsame _ h1) (h5 p hp)⟩
      · have : (getMappings env cli sources destinations ab >>= fun m => Res.ok (if m.isEmpty = true then none else some m)) = .err m ↔
            getMappings env cli sources destinations ab = .err m := by
          cases getMappings env cli sources destinations ab <;> simp
        refine this.trans ((l2 m).trans ⟨?_, fun h => ?_⟩)
        · rintro (⟨h, rfl⟩ | ⟨h1, h2⟩)
          · exact .counts cli hcli hfine h
          · exact .pair cli m hcli hfine h1 h2
        · cases h with
          | badVar b v' a k1 k2 k3 => exact absurd (hcli.1 v' (by rw [k1]; simp)) k3
          | read cli' f m h h1 h2 => exact absurd ((f2 _).mpr ⟨f, h1, .inl h2⟩) (hnoerr _)
          | json cli' f d h h1 h2 h3 => exact absurd ((f2 _).mpr ⟨f, h1, .inr (.inl ⟨d, h2, h3, rfl⟩)⟩) (hnoerr _)
          | entry cli' vars f ps m h h1 h2 h3 => exact absurd ((f2 _).mpr ⟨f, h1, .inr (.inr ⟨vars, ps, fileHas_congr (hsame _ h) h2, h3⟩)⟩) (hnoerr _)
          | counts cli' h h1 h2 => exact .inl ⟨h2, rfl⟩
          | pair cli' m h h1 h2 h3 => exact .inr ⟨h2, firstError_congr (hsame _ h) h3⟩

end Mapping
end DumpSyms
