import Verif.Proof.Cli
import Verif.Props.Process
/-!
# C87: what a command line means
-/
namespace DumpSyms
namespace Cli
open CommandLine

/-- **C87.** A command line is accepted if and only if it is a list of files, options and flags, written in one of their ways, with at
least one file and nothing given twice that must not be; the options are then those given, and the defaults. -/
theorem C87_options (arch : Str) (argv : List Str) (o : Run.Options) :
    parse arch argv = .ok o ↔ ∃ items, CmdLine items argv ∧ NotTwice items ∧ filesOf items ≠ [] ∧ Means arch items o := by
  unfold parse
  rw [getMatches_eq]
  constructor
  · intro h
    rcases rest_cases arch [] notTwice_nil argv with ⟨is, h1, h2, h3⟩ | ⟨_, _, _, _, _, _, _, _, h3⟩ | h3
    · rw [List.nil_append] at h2 h3
      rw [h3] at h
      simp only at h
      by_cases hf : filesOf is = []
      · rw [if_neg (mt (any_file is).mp (fun hh => hh hf))] at h
        cases h
      · rw [if_pos ((any_file is).mpr hf)] at h
        cases h
        exact ⟨is, h1, h2, hf, means_options arch is⟩
    · rw [h3] at h; cases h
    · rw [h3] at h; cases h
  · rintro ⟨is, h1, h2, h3, h4⟩
    rw [(rest_line h1).1 h2]
    simp only
    rw [if_pos ((any_file is).mpr h3)]
    simp only
    rw [means_unique h4 (means_options arch is)]

/-- **C87, the other ends.** Otherwise the process ends at once: with status 0 if help or the version is asked for before anything is
wrong, and with status 2 if not. -/
theorem C87_stops (arch : Str) (argv : List Str) (code : Nat) :
    parse arch argv = .exit code ↔
      (code = 0 ∧ ∃ items pre t post, argv = pre ++ t :: post ∧ Writes items pre ∧ NotTwice items ∧ Asks t) ∨
      (code = 2 ∧ (¬ ∃ items pre t post, argv = pre ++ t :: post ∧ Writes items pre ∧ NotTwice items ∧ Asks t) ∧
        ¬ ∃ items, CmdLine items argv ∧ NotTwice items ∧ filesOf items ≠ []) := by
  have hask : (∃ items pre t post, argv = pre ++ t :: post ∧ Writes items pre ∧ NotTwice items ∧ Asks t) → rest arch [] argv = .exit 0 := by
    rintro ⟨items, pre, t, post, rfl, hw, hn, ha⟩
    have := (rest_writes (arch := arch) (items := []) hw (t :: post)).1 notTwice_nil
    rw [List.nil_append] at this
    rw [this hn, rest_asks ha]
  have hline : (∃ items, CmdLine items argv ∧ NotTwice items ∧ filesOf items ≠ []) → ∃ o, parse arch argv = .ok o := by
    rintro ⟨items, h1, h2, h3⟩
    exact ⟨_, (C87_options arch argv _).mpr ⟨items, h1, h2, h3, means_options arch items⟩⟩
  have hparse : ∀ c, rest arch [] argv = .exit c → parse arch argv = .exit c := by
    intro c h
    unfold parse
    rw [getMatches_eq, h]
  rcases rest_cases arch [] notTwice_nil argv with ⟨is, h1, h2, h3⟩ | ⟨is, pre, t, post, e, hw, hn, ha, h3⟩ | h3
  · rw [List.nil_append] at h2 h3
    have hno : ¬ ∃ items pre t post, argv = pre ++ t :: post ∧ Writes items pre ∧ NotTwice items ∧ Asks t := by
      intro h
      rw [hask h] at h3
      cases h3
    by_cases hf : filesOf is = []
    · have hp : parse arch argv = .exit 2 := by
        unfold parse
        rw [getMatches_eq, h3]
        simp only
        rw [if_neg (mt (any_file is).mp (fun hh => hh hf))]
      rw [hp]
      constructor
      · intro h
        cases h
        refine .inr ⟨rfl, hno, fun h => ?_⟩
        obtain ⟨o, ho⟩ := hline h
        rw [hp] at ho; cases ho
      · rintro (⟨_, h⟩ | ⟨rfl, _⟩)
        · exact absurd h hno
        · rfl
    · obtain ⟨o, ho⟩ := hline ⟨is, h1, h2, hf⟩
      rw [ho]
      constructor
      · intro h; cases h
      · rintro (⟨_, h⟩ | ⟨_, _, h⟩)
        · exact absurd h hno
        · exact absurd ⟨is, h1, h2, hf⟩ h
  · rw [List.nil_append] at hn
    rw [hparse 0 h3]
    have hyes : ∃ items pre t post, argv = pre ++ t :: post ∧ Writes items pre ∧ NotTwice items ∧ Asks t := ⟨is, pre, t, post, e, hw, hn, ha⟩
    constructor
    · intro h; cases h; exact .inl ⟨rfl, hyes⟩
    · rintro (⟨rfl, _⟩ | ⟨_, h, _⟩)
      · rfl
      · exact absurd hyes h
  · have hp := hparse 2 h3
    have hno : ¬ ∃ items pre t post, argv = pre ++ t :: post ∧ Writes items pre ∧ NotTwice items ∧ Asks t := by
      intro h
      rw [hask h] at h3
      cases h3
    rw [hp]
    constructor
    · intro h; cases h
      refine .inr ⟨rfl, hno, fun h => ?_⟩
      obtain ⟨o, ho⟩ := hline h
      rw [hp] at ho; cases ho
    · rintro (⟨_, h⟩ | ⟨rfl, _⟩)
      · exact absurd h hno
      · rfl

/-- **C87, the order.** What is given decides, not where: two command lines with the same files, values and flags are the same. -/
theorem C87_order {arch : Str} {argv argv' : List Str} {items items' : List Item} (h : CmdLine items argv) (h' : CmdLine items' argv')
    (hn : NotTwice items) (hf : filesOf items ≠ []) (e1 : filesOf items = filesOf items') (e2 : ∀ o, valuesOf items o = valuesOf items' o)
    (e3 : ∀ f, items.count (.flag f) = items'.count (.flag f)) : parse arch argv = parse arch argv' := by
  have hm := means_options arch items
  have hn' : NotTwice items' := ⟨fun o ho => by rw [← e2]; exact hn.1 o ho, fun f => by rw [← e3]; exact hn.2 f⟩
  rw [(C87_options arch argv _).mpr ⟨items, h, hn, hf, hm⟩]
  refine ((C87_options arch argv' _).mpr ⟨items', h', hn', by rw [← e1]; exact hf, ?_⟩).symm
  have hmem : ∀ f, Item.flag f ∈ items ↔ Item.flag f ∈ items' := fun f => by
    rw [← List.count_pos_iff, e3, List.count_pos_iff]
  obtain ⟨a1, a2, a3, a4, a5, a6, a7, a8, a9, a10, a11, a12, a13, a14, a15, a16, a17⟩ := hm
  exact ⟨a1.trans e1, by rw [← e2]; exact a2, by rw [← e2]; exact a3, by rw [← e2]; exact a4, by rw [← e2]; exact a5, by rw [← e2]; exact a6,
    a7.trans (hmem _), by rw [← e2]; exact a8, a9.trans (hmem _), by rw [← e2]; exact a10, by rw [← e2]; exact a11, by rw [← e2]; exact a12,
    by rw [← e2]; exact a13, by rw [← e2]; exact a14, a15.trans (hmem _), by rw [← e2]; exact a16, a17.trans (hmem _)⟩

theorem spells_opt (o : Opt) (v : Str) : ∃ ts, Spells (.opt o v) ts := by
  cases h : o.long with
  | some n => exact ⟨_, .longEq o n v h⟩
  | none =>
    have : o = .jobs := by revert h; cases o <;> decide
    subst this
    exact ⟨_, .shortEq .jobs 'j' v rfl⟩

theorem writes_of (items : List Item) (h : filesOf items = []) : ∃ ts, Writes items ts := by
  induction items with
  | nil => exact ⟨[], .nil⟩
  | cons i is ih =>
    cases i with
    | file f => simp [filesOf] at h
    | opt o v =>
      obtain ⟨ts, hs⟩ := spells_opt o v
      obtain ⟨rest, hw⟩ := ih (by simpa [filesOf] using h)
      exact ⟨_, .cons _ ts is rest hs hw⟩
    | flag f =>
      obtain ⟨rest, hw⟩ := ih (by simpa [filesOf] using h)
      exact ⟨_, .cons _ _ is rest (.flag f) hw⟩

/-- **C87, nothing is out of reach.** Any files (also those whose names start with a dash), values and flags can be given. -/
theorem C87_writable (arch : Str) (items : List Item) (hn : NotTwice items) (hf : filesOf items ≠ []) :
    ∃ argv o, parse arch argv = .ok o ∧ Means arch items o := by
  let others := items.filter fun | .file _ => false | _ => true
  have ho : filesOf others = [] := by
    simp only [filesOf, List.filterMap_eq_nil_iff, others, List.mem_filter]
    rintro i ⟨_, hi⟩
    cases i with
    | file f => cases hi
    | opt o v => rfl
    | flag f => rfl
  obtain ⟨ts, hw⟩ := writes_of others ho
  have hv : ∀ o, valuesOf (others ++ (filesOf items).map .file) o = valuesOf items o := by
    intro o
    have h2 : valuesOf ((filesOf items).map Item.file) o = [] := by simp [valuesOf]
    unfold valuesOf at h2 ⊢
    rw [List.filterMap_append, h2, List.append_nil]
    simp only [others, List.filterMap_filter]
    refine congrFun (congrArg _ (funext fun i => ?_)) items
    cases i <;> simp
  have hfile : filesOf (others ++ (filesOf items).map .file) = filesOf items := by
    have := ho
    unfold filesOf at this ⊢
    rw [List.filterMap_append, this, List.nil_append, List.filterMap_map]
    exact List.filterMap_some
  have hflag : ∀ f, (others ++ (filesOf items).map Item.file).count (.flag f) = items.count (.flag f) := by
    intro f
    have : ((filesOf items).map Item.file).count (.flag f) = 0 := List.count_eq_zero.mpr (by simp)
    rw [List.count_append, this, Nat.add_zero]
    exact List.count_filter rfl
  have hmem : ∀ f, Item.flag f ∈ others ++ (filesOf items).map Item.file ↔ Item.flag f ∈ items := fun f => by
    rw [← List.count_pos_iff, hflag, List.count_pos_iff]
  refine ⟨ts ++ str% "--" :: filesOf items, optionsOf arch ((others ++ (filesOf items).map Item.file).map entry), ?_, ?_⟩
  · refine (C87_options arch _ _).mpr ⟨_, .inr ⟨others, filesOf items, ts, hw, rfl, rfl⟩, ?_, by rw [hfile]; exact hf, means_options arch _⟩
    exact ⟨fun o ho => by rw [hv]; exact hn.1 o ho, fun f => by rw [hflag]; exact hn.2 f⟩
  · obtain ⟨a1, a2, a3, a4, a5, a6, a7, a8, a9, a10, a11, a12, a13, a14, a15, a16, a17⟩ :=
      means_options arch (others ++ (filesOf items).map .file)
    exact ⟨a1.trans hfile, by rw [← hv]; exact a2, by rw [← hv]; exact a3, by rw [← hv]; exact a4, by rw [← hv]; exact a5, by rw [← hv]; exact a6,
      a7.trans (hmem _), by rw [← hv]; exact a8, a9.trans (hmem _), by rw [← hv]; exact a10, by rw [← hv]; exact a11, by rw [← hv]; exact a12,
      by rw [← hv]; exact a13, by rw [← hv]; exact a14, a15.trans (hmem _), by rw [← hv]; exact a16, a17.trans (hmem _)⟩

/-- **C87, the process.** The process does what the command line means (C84, C85 and C86 say what that is). -/
theorem C87_process {env : Dumper.Env} {version arch : Str} {cpus : Nat} {argv : List Str} {items : List Item} {o : Run.Options}
    (h : CmdLine items argv) (hn : NotTwice items) (hf : filesOf items ≠ []) (hm : Means arch items o)
    (w : Cache.World) (orders : Run.Orders) (out : Output.World) (code : Nat) (out' : Output.World) :
    Ends env version arch cpus argv w orders out code out' ↔ Run.Exits env version cpus o w orders out code out' := by
  have hp := (C87_options arch argv o).mpr ⟨items, h, hn, hf, hm⟩
  constructor
  · intro he
    cases he with
    | stops code h' => rw [hp] at h'; cases h'
    | runs o' code out' h' he => rw [hp] at h'; cases h'; exact he
  · exact .runs o code out' hp

/-- **C87, the process that stops.** With a command line that is not accepted the process ends in one way, with nothing written: with status 0 if help or the
version is asked for before anything is wrong, and with status 2 if not. -/
theorem C87_process_stops {env : Dumper.Env} {version arch : Str} {cpus : Nat} {argv : List Str}
    (h : ¬ ∃ items, CmdLine items argv ∧ NotTwice items ∧ filesOf items ≠ [])
    (w : Cache.World) (orders : Run.Orders) (out : Output.World) (code : Nat) (out' : Output.World) :
    Ends env version arch cpus argv w orders out code out' ↔
      out' = out ∧ ((∃ items pre t post, argv = pre ++ t :: post ∧ Writes items pre ∧ NotTwice items ∧ Asks t) ∧ code = 0 ∨
        (¬ ∃ items pre t post, argv = pre ++ t :: post ∧ Writes items pre ∧ NotTwice items ∧ Asks t) ∧ code = 2) := by
  have hno : ∀ o, parse arch argv ≠ .ok o := fun o ho => by
    obtain ⟨items, h1, h2, h3, _⟩ := (C87_options arch argv o).mp ho
    exact h ⟨items, h1, h2, h3⟩
  constructor
  · intro he
    cases he with
    | stops code h' =>
      refine ⟨rfl, ?_⟩
      rcases (C87_stops arch argv code).mp h' with ⟨h1, h2⟩ | ⟨h1, h2, _⟩
      · exact .inl ⟨h2, h1⟩
      · exact .inr ⟨h2, h1⟩
    | runs o' code out' h' he => exact absurd h' (hno o')
  · rintro ⟨rfl, ⟨h1, rfl⟩ | ⟨h1, rfl⟩⟩
    · exact .stops 0 ((C87_stops arch argv 0).mpr (.inl ⟨rfl, h1⟩))
    · exact .stops 2 ((C87_stops arch argv 2).mpr (.inr ⟨rfl, h1, h⟩))

/-! ## Examples -/

/-- A process that is given no file, and one that is asked for help, whatever the disk. -/
example (env : Dumper.Env) (w : Cache.World) (orders : Run.Orders) (out out' : Output.World) (code : Nat) :
    (Ends env (str% "1") [] 4 [str% "--inlines"] w orders out code out' ↔ out' = out ∧ code = 2) ∧
    (Ends env (str% "1") [] 4 [str% "--inlines", str% "-h"] w orders out code out' ↔ out' = out ∧ code = 0) := by
  have key : ∀ {argv : List Str} {c : Nat}, parse [] argv = .exit c →
      (Ends env (str% "1") [] 4 argv w orders out code out' ↔ out' = out ∧ code = c) := by
    intro argv c hc
    have hno : ¬ ∃ items, CmdLine items argv ∧ NotTwice items ∧ filesOf items ≠ [] := fun ⟨items, h1, h2, h3⟩ => by
      have := (C87_options [] argv _).mpr ⟨items, h1, h2, h3, means_options [] items⟩
      rw [hc] at this
      cases this
    rw [C87_process_stops hno]
    rcases (C87_stops [] argv c).mp hc with ⟨rfl, h⟩ | ⟨rfl, h, _⟩
    · exact and_congr_right fun _ => ⟨fun x => x.elim (·.2) (fun y => absurd h y.1), fun x => .inl ⟨h, x⟩⟩
    · exact and_congr_right fun _ => ⟨fun x => x.elim (fun y => absurd y.1 h) (·.2), fun x => .inr ⟨h, x⟩⟩
  exact ⟨key rfl, key rfl⟩

/-- The items of `dump_syms a.so -s /s --inlines --mapping-src=-x -j4 --mapping-src y -- -b.so`. -/
def exItems : List Item := [.file (str% "a.so"), .opt .store (str% "/s"), .flag .inlines, .opt .mappingSrc (str% "-x"), .opt .jobs (str% "4"),
  .opt .mappingSrc (str% "y"), .file (str% "-b.so")]
def exLine : List Str := [str% "a.so", str% "-s", str% "/s", str% "--inlines", str% "--mapping-src=-x", str% "-j4", str% "--mapping-src", str% "y",
  str% "--", str% "-b.so"]

example : CmdLine exItems exLine ∧ NotTwice exItems ∧ filesOf exItems ≠ [] := by
  refine ⟨.inr ⟨exItems.take 6, [str% "-b.so"], exLine.take 8, ?_, rfl, rfl⟩, ⟨fun o ho => ?_, fun f => ?_⟩, by decide⟩
  · exact .cons _ [_] _ _ (.file _ (by unfold Plain; intro c r h; cases h)) <|
      .cons _ [_, _] _ _ (.short .store 's' _ rfl (by unfold Plain; intro c r h; cases h)) <|
      .cons _ [_] _ _ (.flag .inlines) <| .cons _ [_] _ _ (.longEq .mappingSrc (str% "mapping-src") (str% "-x") rfl) <|
      .cons _ [_] _ _ (.shortJoined .jobs 'j' '4' [] rfl (by decide)) <|
      .cons _ [_, _] _ _ (.long .mappingSrc (str% "mapping-src") _ rfl (by unfold Plain; intro c r h; cases h)) .nil
  · revert ho; cases o <;> decide
  · cases f <;> decide

/-- The options of that command line. -/
example : ∃ o, parse (str% "x86_64") exLine = .ok o ∧ o.filenames = [str% "a.so", str% "-b.so"] ∧ o.store = some (str% "/s") ∧ o.output = none ∧
    o.mappingSrc = some [str% "-x", str% "y"] ∧ o.mappingDest = none ∧ o.numJobs = str% "4" ∧ o.arch = str% "x86_64" ∧ o.inlines = true ∧
    o.checkCfi = false := ⟨_, rfl, by decide⟩

/-- Refused: no file; a value that looks like an option; an option given twice; an unknown one; a flag with a value. -/
example : parse [] [str% "--inlines"] = .exit 2 ∧ parse [] [str% "a", str% "--mapping-src", str% "-x"] = .exit 2 ∧
    parse [] [str% "a", str% "-o", str% "b", str% "--output=c"] = .exit 2 ∧ parse [] [str% "a", str% "--jobs=2"] = .exit 2 ∧
    parse [] [str% "a", str% "--inlines=yes"] = .exit 2 ∧ parse [] [str% "a", str% "-o", str% "--help"] = .exit 2 := ⟨rfl, rfl, rfl, rfl, rfl, rfl⟩

/-- Help, and a file of that name. -/
example : parse [] [str% "--inlines", str% "-h"] = .exit 0 ∧ parse [] [str% "-o", str% "-", str% "--version", str% "--bad"] = .exit 0 ∧
    ∃ o, parse [] [str% "-o", str% "-", str% "--", str% "--help"] = .ok o ∧ o.filenames = [str% "--help"] ∧ o.output = some ['-'] :=
  ⟨rfl, rfl, _, rfl, rfl, rfl⟩

end Cli
end DumpSyms
