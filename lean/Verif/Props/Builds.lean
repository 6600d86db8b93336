import Verif.Model.Builds
import Verif.Props.Cli
import Verif.Props.WinChecked
import Verif.Props.OfflineRun
import Verif.Props.WinOffline
/-!
# C135: the exit status 2, and one command line in every build
-/
namespace DumpSyms
namespace Builds
open CommandLine (CmdLine NotTwice filesOf Means Writes Asks Item)

/-- The command line is accepted: files, options and flags in their spellings, with a file and nothing single given twice. -/
def Accepted (argv : List Str) : Prop := ∃ items, CmdLine items argv ∧ NotTwice items ∧ filesOf items ≠ []

/-- Help or the version is asked for before anything is wrong. -/
def AsksFirst (argv : List Str) : Prop := ∃ items pre t post, argv = pre ++ t :: post ∧ Writes items pre ∧ NotTwice items ∧ Asks t

theorem exits_codes {b : Build} {env : Dumper.Env} {version : Str} {cpus : Nat} {o : Run.Options} {w : Cache.World} {orders : Run.Orders}
    {out out' : Output.World} {code : Nat} (h : b.Exits env version cpus o w orders out code out') : code = 0 ∨ code = 1 ∨ code = 101 := by
  have key : ∀ r : Res Unit, Run.exitStatus r = 0 ∨ Run.exitStatus r = 1 ∨ Run.exitStatus r = 101 := by
    intro r; cases r <;> simp [Run.exitStatus]
  cases b <;> cases h <;> first | exact .inr (.inr rfl) | exact key _

/-- **C135, the process.** In every build the process does what the command line means. -/
theorem C135_process (b : Build) {env : Dumper.Env} {version arch : Str} {cpus : Nat} {argv : List Str} {items : List Item} {o : Run.Options}
    (h : CmdLine items argv) (hn : NotTwice items) (hf : filesOf items ≠ []) (hm : Means arch items o)
    (w : Cache.World) (orders : Run.Orders) (out : Output.World) (code : Nat) (out' : Output.World) :
    Ends b env version arch cpus argv w orders out code out' ↔ b.Exits env version cpus o w orders out code out' := by
  have hp := (Cli.C87_options arch argv o).mpr ⟨items, h, hn, hf, hm⟩
  constructor
  · intro he
    cases he with
    | stops code h' => rw [hp] at h'; cases h'
    | runs o' code out' h' he => rw [hp] at h'; cases h'; exact he
  · exact .runs o code out' hp

/-- **C135, refused.** In every build a process with a command line that is not accepted ends in one way, with nothing written: with status 0 if help or the version is
asked for before anything is wrong, and with status 2 if not. -/
theorem C135_refused (b : Build) {env : Dumper.Env} {version arch : Str} {cpus : Nat} {argv : List Str} (h : ¬ Accepted argv)
    (w : Cache.World) (orders : Run.Orders) (out : Output.World) (code : Nat) (out' : Output.World) :
    Ends b env version arch cpus argv w orders out code out' ↔ out' = out ∧ (AsksFirst argv ∧ code = 0 ∨ ¬ AsksFirst argv ∧ code = 2) := by
  have hno : ∀ o, Cli.parse arch argv ≠ .ok o := fun o ho => by
    obtain ⟨items, h1, h2, h3, _⟩ := (Cli.C87_options arch argv o).mp ho
    exact h ⟨items, h1, h2, h3⟩
  constructor
  · intro he
    cases he with
    | stops code h' =>
      refine ⟨rfl, ?_⟩
      rcases (Cli.C87_stops arch argv code).mp h' with ⟨h1, h2⟩ | ⟨h1, h2, _⟩
      · exact .inl ⟨h2, h1⟩
      · exact .inr ⟨h2, h1⟩
    | runs o' code out' h' he => exact absurd h' (hno o')
  · rintro ⟨rfl, ⟨h1, rfl⟩ | ⟨h1, rfl⟩⟩
    · exact .stops 0 ((Cli.C87_stops arch argv 0).mpr (.inl ⟨rfl, h1⟩))
    · exact .stops 2 ((Cli.C87_stops arch argv 2).mpr (.inr ⟨rfl, h1, h⟩))

/-- **C135, status 2.** In every build, on every machine and disk, the status is 2 exactly when the command line is neither accepted nor asks for help or the
version; nothing is written then, and no other status is possible. -/
theorem C135_two (b : Build) (env : Dumper.Env) (version arch : Str) (cpus : Nat) (argv : List Str) (w : Cache.World) (orders : Run.Orders)
    (out : Output.World) :
    (∀ out', Ends b env version arch cpus argv w orders out 2 out' ↔ ¬ Accepted argv ∧ ¬ AsksFirst argv ∧ out' = out) ∧
    (¬ Accepted argv → ¬ AsksFirst argv → ∀ code out', Ends b env version arch cpus argv w orders out code out' → code = 2 ∧ out' = out) := by
  refine ⟨fun out' => ⟨fun h => ?_, fun ⟨h1, h2, h3⟩ => (C135_refused b h1 w orders out 2 out').mpr ⟨h3, .inr ⟨h2, rfl⟩⟩⟩, fun h1 h2 code out' h => ?_⟩
  · by_cases ha : Accepted argv
    · obtain ⟨items, a1, a2, a3⟩ := ha
      have := exits_codes ((C135_process b a1 a2 a3 (Cli.means_options arch items) w orders out 2 out').mp h)
      omega
    · obtain ⟨h1, ⟨_, h2⟩ | ⟨h2, _⟩⟩ := (C135_refused b ha w orders out 2 out').mp h
      · cases h2
      · exact ⟨ha, h2, h1⟩
  · obtain ⟨h3, ⟨h4, _⟩ | ⟨_, h4⟩⟩ := (C135_refused b h1 w orders out code out').mp h
    · exact absurd h4 h2
    · exact ⟨h4, h3⟩

/-- **C135, every end.** In every build a process ends with status 0, 1, 2 or 101, if it ends. -/
theorem C135_codes (b : Build) (env : Dumper.Env) (version arch : Str) (cpus : Nat) (argv : List Str) (w : Cache.World) (orders : Run.Orders)
    (out : Output.World) (code : Nat) (out' : Output.World) (h : Ends b env version arch cpus argv w orders out code out') :
    code = 0 ∨ code = 1 ∨ code = 2 ∨ code = 101 := by
  cases h with
  | stops _ h' =>
    rcases (Cli.C87_stops arch argv code).mp h' with ⟨h1, _⟩ | ⟨h1, _⟩
    · exact .inl h1
    · exact .inr (.inr (.inl h1))
  | runs o _ _ _ he => have := exits_codes he; omega

/-- **C135, overflow checks.** From the command line, a build with overflow checks crashes, or ends as the release build for the same machine can end. -/
theorem C135_checked {env : Dumper.Env} (hus : SortsByStart env.us) (version arch : Str) (cpus : Nat) (argv : List Str) (w : Cache.World)
    (orders : Run.Orders) (out : Output.World) (code : Nat) (out' : Output.World) :
    (Ends .checked env version arch cpus argv w orders out code out' → code = 101 ∨ Ends .unix env version arch cpus argv w orders out code out') ∧
    (Ends .winChecked env version arch cpus argv w orders out code out' → code = 101 ∨ Ends .windows env version arch cpus argv w orders out code out') := by
  constructor <;> intro h <;> cases h with
  | stops _ h' => exact .inr (.stops code h')
  | runs o _ _ h' he =>
    first
    | exact (CheckedRun.C133_same_or_crash hus version cpus o w orders out code out' he).imp_right (.runs o code out' h')
    | exact (WinChecked.C134_same_or_crash hus version cpus o w orders out code out' he).imp_right (.runs o code out' h')

/-- **C135, without http.** From a command line that gives no id, and files that need no symbol server, the build without the `http` feature can end in the same ways as the
one with it.  (For PE files the two differ, see C88.) -/
theorem C135_offline {env : Dumper.Env} (version arch : Str) (cpus : Nat) (argv : List Str) (w : Cache.World) (orders : Run.Orders) (out : Output.World)
    (h : ∀ items o, CmdLine items argv → NotTwice items → filesOf items ≠ [] → Means arch items o →
      o.debugId = none ∧ o.codeId = none ∧ ∀ f ∈ o.filenames, Run.NeedsNoServer env w f) (code : Nat) (out' : Output.World) :
    Ends .offline env version arch cpus argv w orders out code out' ↔ Ends .unix env version arch cpus argv w orders out code out' := by
  by_cases ha : Accepted argv
  · obtain ⟨items, a1, a2, a3⟩ := ha
    obtain ⟨h1, h2, h3⟩ := h items _ a1 a2 a3 (Cli.means_options arch items)
    rw [C135_process .offline a1 a2 a3 (Cli.means_options arch items), C135_process .unix a1 a2 a3 (Cli.means_options arch items)]
    exact Run.C88_program_partial env version cpus _ w orders out h1 h2 h3 code out'
  · rw [C135_refused .offline ha, C135_refused .unix ha]

/-- **C135, without http, on Windows.** The same for the builds on Windows.  (For PE files the two differ, see C136.) -/
theorem C135_offline_windows {env : Dumper.Env} (version arch : Str) (cpus : Nat) (argv : List Str) (w : Cache.World) (orders : Run.Orders)
    (out : Output.World)
    (h : ∀ items o, CmdLine items argv → NotTwice items → filesOf items ≠ [] → Means arch items o →
      o.debugId = none ∧ o.codeId = none ∧ ∀ f ∈ o.filenames, WinOffline.NeedsNoServer env w f) (code : Nat) (out' : Output.World) :
    Ends .winOffline env version arch cpus argv w orders out code out' ↔ Ends .windows env version arch cpus argv w orders out code out' := by
  by_cases ha : Accepted argv
  · obtain ⟨items, a1, a2, a3⟩ := ha
    obtain ⟨h1, h2, h3⟩ := h items _ a1 a2 a3 (Cli.means_options arch items)
    rw [C135_process .winOffline a1 a2 a3 (Cli.means_options arch items), C135_process .windows a1 a2 a3 (Cli.means_options arch items)]
    exact WinOffline.C136_program_partial env version cpus _ w orders out h1 h2 h3 code out'
  · rw [C135_refused .winOffline ha, C135_refused .windows ha]

/-- The release build on Unix is the one of C87. -/
theorem ends_unix (env : Dumper.Env) (version arch : Str) (cpus : Nat) (argv : List Str) (w : Cache.World) (orders : Run.Orders)
    (out : Output.World) (code : Nat) (out' : Output.World) :
    Ends .unix env version arch cpus argv w orders out code out' ↔ Cli.Ends env version arch cpus argv w orders out code out' := by
  constructor <;> intro h <;> cases h with
  | stops _ h' => exact .stops code h'
  | runs o _ _ h' he => exact .runs o code out' h' he

/-! ## Examples -/

theorem refused_of {argv : List Str} {c : Nat} (h : Cli.parse [] argv = .exit c) : ¬ Accepted argv := fun ⟨items, h1, h2, h3⟩ => by
  have := (Cli.C87_options [] argv _).mpr ⟨items, h1, h2, h3, Cli.means_options [] items⟩
  rw [h] at this
  cases this

/-- No file is given: every build ends with status 2 and has written nothing. -/
example (b : Build) (out' : Output.World) :
    Ends b WinHost.winEnv (str% "1") [] 4 [str% "--inlines"] WinHost.winTwoDisk Run.exOrders Output.emptyWorld 2 out' ↔ out' = Output.emptyWorld := by
  have hr : Cli.parse [] [str% "--inlines"] = .exit 2 := rfl
  have ha : ¬ AsksFirst [str% "--inlines"] := by
    rcases (Cli.C87_stops [] [str% "--inlines"] 2).mp hr with ⟨h, _⟩ | ⟨_, h, _⟩
    · cases h
    · exact h
  rw [(C135_two b _ _ _ _ _ _ _ _).1]
  exact ⟨fun h => h.2.2, fun h => ⟨refused_of hr, ha, h⟩⟩

/-- `dump_syms /d/a -s /s -j 1 --no-generator` stores the module in the build without `http` too. -/
def offlineArgs : List Str := [str% "/d/a", str% "-s", str% "/s", str% "-j", str% "1", str% "--no-generator"]

example : ∃ out', out'.files (str% "/s/lib.so/E1/lib.so.sym") ≠ none ∧
    Ends .unix Dumper.exEnv (str% "1") (str% "x86_64") 4 offlineArgs Run.exDisk Run.exOrders Output.emptyWorld 0 out' ∧
    Ends .offline Dumper.exEnv (str% "1") (str% "x86_64") 4 offlineArgs Run.exDisk Run.exOrders Output.emptyWorld 0 out' := by
  have hp : Cli.parse (str% "x86_64") offlineArgs = .ok (Run.exOptions [str% "/d/a"]) := rfl
  have h : (Dumper.singleFile Dumper.exEnv (some []) CheckedRun.oneConfig (str% "/d/a") Run.exDisk Output.emptyWorld).1 = .ok () := by decide +kernel
  have ha := Run.Acts.single (env := Dumper.exEnv) (extra := some []) (files := [str% "/d/a"]) (w := Run.exDisk) (orders := Run.exOrders)
    (out := Output.emptyWorld) CheckedRun.oneConfig (str% "/d/a") rfl
  rw [h] at ha
  have he := Run.Exits.acts (version := str% "1") (o := Run.exOptions [str% "/d/a"]) (cpus := 4) [] _ _ rfl ha
  have h1 : Ends .unix Dumper.exEnv (str% "1") (str% "x86_64") 4 offlineArgs Run.exDisk Run.exOrders Output.emptyWorld 0 _ := .runs _ _ _ hp he
  refine ⟨_, ?_, h1, (C135_offline _ _ _ _ _ _ _ ?_ _ _).mpr h1⟩
  · decide +kernel
  · intro items o a1 a2 a3 a4
    have := (Cli.C87_options (str% "x86_64") offlineArgs o).mpr ⟨items, a1, a2, a3, a4⟩
    rw [hp] at this
    cases this
    refine ⟨rfl, rfl, fun f hf => ?_⟩
    have hf : f = str% "/d/a" := by simpa [Run.exOptions] using hf
    subst hf
    exact .inl ⟨_, rfl, by decide, by decide⟩

/-- `dump_syms C:\d\a -s C:\store -j 1 --no-generator` stores the module on Windows, in the build with overflow checks, in the release build and without `http`. -/
def storeArgs : List Str := [str% "C:\\d\\a", str% "-s", str% "C:\\store", str% "-j", str% "1", str% "--no-generator"]

example : ∃ out', out'.files (str% "C:\\store\\lib.so\\E1\\lib.so.sym") ≠ none ∧
    Ends .winChecked WinHost.winEnv (str% "1") (str% "x86_64") 4 storeArgs WinHost.winTwoDisk Run.exOrders Output.emptyWorld 0 out' ∧
    Ends .windows WinHost.winEnv (str% "1") (str% "x86_64") 4 storeArgs WinHost.winTwoDisk Run.exOrders Output.emptyWorld 0 out' ∧
    Ends .winOffline WinHost.winEnv (str% "1") (str% "x86_64") 4 storeArgs WinHost.winTwoDisk Run.exOrders Output.emptyWorld 0 out' := by
  have hp : Cli.parse (str% "x86_64") storeArgs = .ok (WinHost.winOptions [str% "C:\\d\\a"]) := rfl
  have h : (WinChecked.singleFile WinHost.winEnv (some []) WinChecked.winOneConfig (str% "C:\\d\\a") WinHost.winTwoDisk Output.emptyWorld).1 = .ok () := by decide +kernel
  have ha := WinChecked.Acts.single (env := WinHost.winEnv) (extra := some []) (files := [str% "C:\\d\\a"]) (w := WinHost.winTwoDisk) (orders := Run.exOrders)
    (out := Output.emptyWorld) WinChecked.winOneConfig (str% "C:\\d\\a") rfl
  rw [h] at ha
  have he := WinChecked.Exits.acts (version := str% "1") (o := WinHost.winOptions [str% "C:\\d\\a"]) (cpus := 4) [] _ _ rfl ha
  have h1 : Ends .winChecked WinHost.winEnv (str% "1") (str% "x86_64") 4 storeArgs WinHost.winTwoDisk Run.exOrders Output.emptyWorld 0 _ := .runs _ _ _ hp he
  have h2 := ((C135_checked sampleSort _ _ _ _ _ _ _ _ _).2 h1).resolve_left (by decide)
  refine ⟨_, ?_, h1, h2, (C135_offline_windows _ _ _ _ _ _ _ ?_ _ _).mpr h2⟩
  · decide +kernel
  · intro items o a1 a2 a3 a4
    have := (Cli.C87_options (str% "x86_64") storeArgs o).mpr ⟨items, a1, a2, a3, a4⟩
    rw [hp] at this
    cases this
    refine ⟨rfl, rfl, fun f hf => ?_⟩
    have hf : f = str% "C:\\d\\a" := by simpa [WinHost.winOptions] using hf
    subst hf
    exact .inl ⟨_, rfl, by decide, by decide⟩

end Builds
end DumpSyms
