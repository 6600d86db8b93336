import Verif.Proof.WinChecked
import Verif.Props.CheckedRun
import Verif.Props.WinCrashWrite
import Verif.Props.WinRunSamples
/-!
# C134: the program for Windows built with overflow checks
-/
namespace DumpSyms
namespace WinChecked
open CheckedRun (Small inlinedOf Alike returned_alike moments_alike moments_eq sumBy_map Moments exObj_small select_mem steps steps_moments go)

/-- **C134, one file.** The build with overflow checks does what the release build does, or crashes before it has written anything; what it has downloaded
by then is the same. -/
theorem C134_single {env : Dumper.Env} (hus : SortsByStart env.us) (extra : Option (List Str)) (config : Dumper.Config) (path : Str) (w : Cache.World)
    (out : Output.World) :
    singleFile env extra config path w out = WinHost.singleFile env extra config path w out ∨
      (singleFile env extra config path w out).1 = .panic ∧ (singleFile env extra config path w out).2.2 = out ∧
      (singleFile env extra config path w out).2.1 = (WinHost.singleFile env extra config path w out).2.1 := by
  obtain ⟨h1, h2⟩ := readSingle_same hus config path w
  rcases h1.or with h | h
  · right
    unfold singleFile WinHost.singleFile
    simp only [h, h2, true_and]
    cases (WinHost.readSingle env config path w).1 <;> rfl
  · left
    unfold singleFile WinHost.singleFile
    simp only [h, h2]
    cases (WinHost.readSingle env config path w).1 <;> rfl

theorem threads_alike {env : Dumper.Env} (hus : SortsByStart env.us) (extra : Option (List Str)) (config : Dumper.Config) (files : List Str)
    (ws : Nat → Cache.World) (orders : Run.Orders) (mp : Option (List Mapping.Generator)) (arch : Str) (out : Output.World) :
    Alike (threads env extra config files ws orders mp arch out) (WinHost.threads env extra config files ws orders mp arch out) := by
  refine ⟨rfl, rfl, fun i => ?_, rfl, rfl, rfl⟩
  show (match files[i]? with | some f => (parseInput env config mp arch f (ws i)).1 | none => .panic) = .panic ∨
    (match files[i]? with | some f => (parseInput env config mp arch f (ws i)).1 | none => .panic) =
      (match files[i]? with | some f => (WinHost.parseInput env config mp arch f (ws i)).1 | none => .panic)
  cases files[i]? with
  | none => exact .inl rfl
  | some f =>
    exact (parseInput_same (F := ∀ buf, WinHost.readFile env.net.cab (ws i).disk f = .ok buf → ∀ o, MainObject env buf f arch none (ws i) o → Small o)
      hus config mp arch f (ws i) fun h => h).or

/-- **C134**, whatever the inputs: a process of the build with overflow checks crashes, or ends as a process of the release build can end, with
the same exit status and the same files. -/
theorem C134_same_or_crash {env : Dumper.Env} (hus : SortsByStart env.us) (version : Str) (cpus : Nat) (o : Run.Options) (w : Cache.World)
    (orders : Run.Orders) (out : Output.World) (status : Nat) (out' : Output.World) (h : Exits env version cpus o w orders out status out') :
    status = 101 ∨ WinHost.Exits env version cpus o w orders out status out' := by
  cases h with
  | badInfo h => exact .inl rfl
  | acts extra r _ he ha =>
    suffices hs : r = .panic ∨ WinHost.Acts env (some extra) o.filenames w orders out (Run.actionOf cpus o) r out' by
      rcases hs with rfl | hs
      · exact .inl rfl
      · exact .inr (.acts extra r out' he hs)
    generalize Run.actionOf cpus o = act at ha ⊢
    cases ha with
    | list => exact .inr .list
    | single config f hf =>
      rcases C134_single hus (some extra) config f w out with h | h
      · rw [h]; exact .inr (.single config f hf)
      · exact .inl h.1
    | several config ws _ _ hl hw hs =>
      cases hs with
      | badOptions m hp => exact .inr (.several config ws _ _ hl hw (.badOptions m hp))
      | badMapping hp => exact .inl rfl
      | returned mp arch m hp hr hret =>
        obtain ⟨h1, h2⟩ := returned_alike (threads_alike hus (some extra) config o.filenames ws orders mp arch out) hr hret
        exact .inr (.several config ws _ _ hl hw (.returned mp arch m hp h1 h2))
      | crashed => exact .inl rfl

/-- **C134, every moment.** Up to the first crash of a worker, the threads of the build with overflow checks and the files they have written are as those of the release build
can be. -/
theorem C134_moments {env : Dumper.Env} (hus : SortsByStart env.us) (extra : Option (List Str)) (config : Dumper.Config) (files : List Str)
    (ws : Nat → Cache.World) (orders : Run.Orders) (mp : Option (List Mapping.Generator)) (arch : Str) (out : Output.World)
    (calls : ObjectInfo → List Output.Todo) (m : Threads.Moment) (h : Moments (threads env extra config files ws orders mp arch out) calls out m)
    (hw : ∀ (i : Nat) (a b : List Nat), m.s.ws[i]? ≠ some (.panicked a b)) :
    Threads.Moments (WinHost.threads env extra config files ws orders mp arch out) calls out m := by
  rcases moments_alike (threads_alike hus extra config files ws orders mp arch out) h with ⟨i, a, b, h⟩ | h
  · exact absurd h (hw i a b)
  · exact h

theorem moments_small {env : Dumper.Env} (hus : SortsByStart env.us) (extra : Option (List Str)) {config : Dumper.Config} {files : List Str}
    {w : Cache.World} (hsm : SmallFiles env config files w) {ws : Nat → Cache.World} (hw : ∀ i, WinHost.Meanwhile env w (ws i)) (orders : Run.Orders)
    (horder : ∀ t, (orders.results t).Perm t) {mp : Option (List Mapping.Generator)} {arch : Str}
    (hp : Dumper.prepare env config = .ok (mp, arch)) (out : Output.World) (m : Threads.Moment) :
    threads env extra config files ws orders mp arch out = WinHost.threads env extra config files ws orders mp arch out ∧
    (Moments (WinHost.threads env extra config files ws orders mp arch out) (WinHost.callsOf env.io extra config.output config.checkCfi) out m ↔
      Threads.Moments (WinHost.threads env extra config files ws orders mp arch out) (WinHost.callsOf env.io extra config.output config.checkCfi) out m) := by
  have key : ∀ (i : Nat) f, files[i]? = some f → Res.Same True (fun o => True → o.symbols.Below) (parseInput env config mp arch f (ws i)).1
      (WinHost.parseInput env config mp arch f (ws i)).1 := fun i f hf =>
    parseInput_same hus config mp arch f (ws i) fun _ buf hb o ho =>
      hsm.small f (List.mem_of_getElem? hf) (ws i) (hw i) buf hb mp arch hp o ho
  constructor
  · unfold threads WinHost.threads
    congr 1
    funext i
    cases hf : files[i]? with
    | none => rfl
    | some f => exact (key i f hf).eq trivial
  · refine moments_eq (fun t => horder t) ?_ ?_
    · intro i o ho
      have ho' : (match files[i]? with | some f => (WinHost.parseInput env config mp arch f (ws i)).1 | none => .panic) = .ok o := ho
      cases hf : files[i]? with
      | none => rw [hf] at ho'; cases ho'
      | some f =>
        rw [hf] at ho'
        rcases key i f hf with h | ⟨_, h⟩
        · exact absurd trivial h.1
        · exact h o ho' trivial
    · refine Nat.lt_of_le_of_lt (Nat.le_of_eq ?_) (hsm.origins ws hw mp arch hp)
      rw [sumBy_map]
      congr 1
      refine List.map_congr_left fun i hi => ?_
      show (match (match files[i]? with | some f => (WinHost.parseInput env config mp arch f (ws i)).1 | none => .panic) with
        | .ok o => o.inlineOrigins.length | _ => 0) = _
      cases files[i]? with
      | none => rfl
      | some f =>
        dsimp only
        unfold inlinedOf
        cases (WinHost.parseInput env config mp arch f (ws i)).1 <;> rfl

/-- **C134** when everything in the object files that are dumped ends below 2^32, and there are fewer than 2^32 inlined functions: a process of one build can end
in a way exactly when a process of the other can. Missing: other object files (see `C134_witness`). -/
theorem C134_same_partial {env : Dumper.Env} (hus : SortsByStart env.us) (version : Str) (cpus : Nat) (o : Run.Options) (w : Cache.World)
    (orders : Run.Orders) (horder : ∀ t, (orders.results t).Perm t) (out : Output.World)
    (hone : ∀ config f, Run.actionOf cpus o = .dump config → o.filenames = [f] → SmallFile env config f w)
    (hmany : ∀ config, Run.actionOf cpus o = .dump config → o.filenames.length ≠ 1 → SmallFiles env config o.filenames w)
    (status : Nat) (out' : Output.World) :
    Exits env version cpus o w orders out status out' ↔ WinHost.Exits env version cpus o w orders out status out' := by
  have hsingle : ∀ config f extra, Run.actionOf cpus o = .dump config → o.filenames = [f] →
      singleFile env extra config f w out = WinHost.singleFile env extra config f w out := by
    intro config f extra ha hf
    obtain ⟨h1, h2⟩ := readSingle_same hus config f w
    have h := h1.eq (hone config f ha hf)
    unfold singleFile WinHost.singleFile
    simp only [h, h2]
    cases (WinHost.readSingle env config f w).1 <;> rfl
  constructor <;> intro h
  · cases h with
    | badInfo h => exact .badInfo h
    | acts extra r _ he ha =>
      refine .acts extra r out' he ?_
      generalize hact : Run.actionOf cpus o = act at ha ⊢
      cases ha with
      | list => exact .list
      | single config f hf => rw [hsingle config f (some extra) hact hf]; exact .single config f hf
      | several config ws _ _ hl hw hs =>
        refine .several config ws _ _ hl hw ?_
        cases hs with
        | badOptions m hp => exact .badOptions m hp
        | badMapping hp => exact .badMapping hp
        | returned mp arch m hp hr hret =>
          obtain ⟨e, hm⟩ := moments_small hus (some extra) (hmany config hact hl) hw orders horder hp out m
          rw [e] at hr hret
          exact .returned mp arch m hp (hm.mp hr) hret
        | crashed mp arch m hp hr hc =>
          obtain ⟨e, hm⟩ := moments_small hus (some extra) (hmany config hact hl) hw orders horder hp out m
          rw [e] at hr
          exact .crashed mp arch m hp (hm.mp hr) hc
  · cases h with
    | badInfo h => exact .badInfo h
    | acts extra r _ he ha =>
      refine .acts extra r out' he ?_
      generalize hact : Run.actionOf cpus o = act at ha ⊢
      cases ha with
      | list => exact .list
      | single config f hf => rw [← hsingle config f (some extra) hact hf]; exact .single config f hf
      | several config ws _ _ hl hw hs =>
        refine .several config ws _ _ hl hw ?_
        cases hs with
        | badOptions m hp => exact .badOptions m hp
        | badMapping hp => exact .badMapping hp
        | returned mp arch m hp hr hret =>
          obtain ⟨e, hm⟩ := moments_small hus (some extra) (hmany config hact hl) hw orders horder hp out m
          refine .returned mp arch m hp ?_ ?_
          · rw [e]; exact hm.mpr hr
          · rw [e]; exact hret
        | crashed mp arch m hp hr hc =>
          obtain ⟨e, hm⟩ := moments_small hus (some extra) (hmany config hact hl) hw orders horder hp out m
          refine .crashed mp arch m hp ?_ hc
          rw [e]; exact hm.mpr hr

theorem winTwo_noServer : ∀ servers, WinHost.getSymServers WinHost.winEnv.home WinHost.winTwoDisk.disk none ≠ .ok (some servers) := by
  intro ss h
  have hn : WinHost.getSymServers WinHost.winEnv.home WinHost.winTwoDisk.disk none = .ok none := by rfl
  rw [hn] at h
  cases h

/-- Every object file of the samples is small. -/
theorem winSmall {buf : Bytes} {path arch : Str} {server : Option Str} {w : Cache.World} {o : ObjInput}
    (h : MainObject WinHost.winEnv buf path arch server w o) : Small o := by
  have hpdb : ∀ {b x}, Dumper.exParsers.pdb b = .ok x → Small x := by
    intro b x h
    unfold Dumper.exParsers at h
    dsimp only at h
    split at h <;> cases h
    exact exObj_small _ _ _ _
  cases h with
  | elf _ h =>
    unfold WinHost.winEnv at h
    dsimp only at h
    split at h
    · cases h; exact exObj_small _ _ _ _
    · unfold Dumper.exParsers at h
      dsimp only at h
      split at h <;> cases h
      exact exObj_small _ _ _ _
  | macho l _ h hs =>
    have hm := select_mem hs
    change Dumper.exParsers.archive buf = _ at h
    unfold Dumper.exParsers at h
    dsimp only at h
    split at h <;> cases h <;> simp only [List.mem_cons, List.not_mem_nil, or_false, Option.some.injEq, reduceCtorEq, false_or] at hm
    · subst hm; exact exObj_small _ _ _ _
    · rcases hm with rfl | rfl | rfl <;> exact exObj_small _ _ _ _
  | pdb _ h => exact hpdb h
  | found _ _ _ _ _ _ _ h => exact hpdb h
  | pe _ _ h =>
    unfold WinHost.winEnv at h
    dsimp only at h
    split at h
    · cases h; exact exObj_small _ _ _ _
    · unfold Dumper.exParsers at h
      dsimp only at h
      split at h <;> cases h <;> exact exObj_small _ _ _ _

def winOneConfig : Dumper.Config := match Run.actionOf 4 (WinHost.winOptions [str% "C:\\d\\a"]) with | .dump c => c | _ => Dumper.exConfig
def winCheckedConfig : Dumper.Config := match Run.actionOf 4 (WinHost.winOptions WinHost.winFiles) with | .dump c => c | _ => Dumper.exConfig

theorem smallFiles_of {config : Dumper.Config} (hp : Dumper.prepare WinHost.winEnv config = .ok (none, str% "x86_64"))
    (hs : ((List.range WinHost.winFiles.length).map fun i =>
      match WinHost.winFiles[i]? with
      | some f => inlinedOf (WinHost.parseInput WinHost.winEnv config none (str% "x86_64") f WinHost.winTwoDisk).1
      | none => 0).sum < M32) : SmallFiles WinHost.winEnv config WinHost.winFiles WinHost.winTwoDisk where
  small := fun _ _ _ _ _ _ _ _ _ _ h => winSmall h
  origins := by
    intro ws hw mp arch hp'
    rw [hp] at hp'
    cases hp'
    have key : ∀ i f, (WinHost.parseInput WinHost.winEnv config none (str% "x86_64") f (ws i)).1 =
        (WinHost.parseInput WinHost.winEnv config none (str% "x86_64") f WinHost.winTwoDisk).1 := fun i f =>
      (WinHost.parse_start (hw i) winTwo_noServer config none (str% "x86_64") f).symm
    simp only [key]
    exact hs

theorem winSmallFiles : SmallFiles WinHost.winEnv winCheckedConfig WinHost.winFiles WinHost.winTwoDisk := smallFiles_of rfl (by decide +kernel)
theorem winSmallTwo : SmallFiles WinHost.winEnv (Run.exTwo WinHost.winOut) WinHost.winFiles WinHost.winTwoDisk := smallFiles_of rfl (by decide +kernel)

/-- The hypotheses of `C134_same_partial` hold of a run over two files, and of a run over one file; both builds store the module there. -/
example : (∀ st out', Exits WinHost.winEnv (str% "1") 4 (WinHost.winOptions WinHost.winFiles) WinHost.winTwoDisk Run.exOrders Output.emptyWorld st out' ↔
      WinHost.Exits WinHost.winEnv (str% "1") 4 (WinHost.winOptions WinHost.winFiles) WinHost.winTwoDisk Run.exOrders Output.emptyWorld st out') ∧
    (∀ st out', Exits WinHost.winEnv (str% "1") 4 (WinHost.winOptions [str% "C:\\d\\a"]) WinHost.winTwoDisk Run.exOrders Output.emptyWorld st out' ↔
      WinHost.Exits WinHost.winEnv (str% "1") 4 (WinHost.winOptions [str% "C:\\d\\a"]) WinHost.winTwoDisk Run.exOrders Output.emptyWorld st out') ∧
    ∃ out', Exits WinHost.winEnv (str% "1") 4 (WinHost.winOptions [str% "C:\\d\\a"]) WinHost.winTwoDisk Run.exOrders Output.emptyWorld 0 out' ∧
      out'.files (str% "C:\\store\\lib.so\\E1\\lib.so.sym") ≠ none := by
  refine ⟨fun st out' => C134_same_partial sampleSort _ _ _ _ _ (fun t => .refl _) _ ?_ ?_ st out',
    fun st out' => C134_same_partial sampleSort _ _ _ _ _ (fun t => .refl _) _ ?_ ?_ st out',
    (singleFile WinHost.winEnv (some []) winOneConfig (str% "C:\\d\\a") WinHost.winTwoDisk Output.emptyWorld).2.2, ?_, by decide +kernel⟩
  · intro _ _ _ h; cases h
  · intro config h _; cases h; exact winSmallFiles
  · intro _ _ _ _ _ _ _ _ _ _ _ _ h; exact winSmall h
  · intro _ _ h; exact absurd rfl h
  · have h : (singleFile WinHost.winEnv (some []) winOneConfig (str% "C:\\d\\a") WinHost.winTwoDisk Output.emptyWorld).1 = .ok () := by decide +kernel
    have ha := Acts.single (env := WinHost.winEnv) (extra := some []) (files := [str% "C:\\d\\a"]) (w := WinHost.winTwoDisk) (orders := Run.exOrders)
      (out := Output.emptyWorld) winOneConfig (str% "C:\\d\\a") rfl
    rw [h] at ha
    exact Exits.acts (o := WinHost.winOptions [str% "C:\\d\\a"]) (cpus := 4) [] _ _ rfl ha

/-- The moment in which both modules of two files have been stored is one of the build with overflow checks too, and no worker has panicked then. -/
example : ∃ m, Moments (threads WinHost.winEnv none (Run.exTwo WinHost.winOut) WinHost.winFiles (fun _ => WinHost.winTwoDisk) Run.exOrders none (str% "x86_64") Output.emptyWorld)
      (WinHost.winCalls WinHost.winOut) Output.emptyWorld m ∧ (∀ (i : Nat) (a b : List Nat), m.s.ws[i]? ≠ some (.panicked a b)) ∧
      m.out.files (str% "C:\\store\\lib.so\\E1\\lib.so.sym") ≠ none := by
  obtain ⟨he, hm⟩ := moments_small (env := WinHost.winEnv) sampleSort none winSmallTwo (ws := fun _ => WinHost.winTwoDisk) (fun _ => .start) Run.exOrders (fun t => .refl _)
    (mp := none) (arch := str% "x86_64") rfl Output.emptyWorld (WinHost.winLast WinHost.winOut)
  refine ⟨WinHost.winLast WinHost.winOut, ?_, ?_, by decide +kernel⟩
  · rw [he]; exact hm.mpr (Run.played_moments (by decide +kernel))
  · have h : (WinHost.winLast WinHost.winOut).s.ws.all (fun w => match w with | .panicked _ _ => false | _ => true) = true := by decide +kernel
    intro i a b hi
    cases List.all_eq_true.mp h _ (List.mem_of_getElem? hi)

/-- The samples, with an ELF file that has a function which reaches 2^32. -/
def winEdgeEnv : Dumper.Env := { WinHost.winEnv with parsers := { WinHost.winEnv.parsers with elf := fun _ => .ok { edgeObj with kind := .other } } }

/-- **C134, the bound is needed.** A file with a function that reaches 2^32 and a public symbol in it is dumped by the release build, with exit status 0; the build with
overflow checks crashes, and writes nothing. -/
theorem C134_witness :
    (∃ out', WinHost.Exits winEdgeEnv (str% "1") 4 (WinHost.winOptions [str% "C:\\d\\a"]) WinHost.winTwoDisk Run.exOrders Output.emptyWorld 0 out' ∧
      out'.files (str% "C:\\store\\lib.so.debug\\1DE0\\lib.so.debug.sym") ≠ none) ∧
    (∀ st out', Exits winEdgeEnv (str% "1") 4 (WinHost.winOptions [str% "C:\\d\\a"]) WinHost.winTwoDisk Run.exOrders Output.emptyWorld st out' →
      st = 101 ∧ out' = Output.emptyWorld) := by
  refine ⟨⟨(WinHost.singleFile winEdgeEnv (some []) winOneConfig (str% "C:\\d\\a") WinHost.winTwoDisk Output.emptyWorld).2.2, ?_, by decide +kernel⟩, ?_⟩
  · have h : (WinHost.singleFile winEdgeEnv (some []) winOneConfig (str% "C:\\d\\a") WinHost.winTwoDisk Output.emptyWorld).1 = .ok () := by decide +kernel
    have ha := WinHost.Acts.single (env := winEdgeEnv) (extra := some []) (files := [str% "C:\\d\\a"]) (w := WinHost.winTwoDisk) (orders := Run.exOrders)
      (out := Output.emptyWorld) winOneConfig (str% "C:\\d\\a") rfl
    rw [h] at ha
    exact WinHost.Exits.acts (o := WinHost.winOptions [str% "C:\\d\\a"]) (cpus := 4) [] _ _ rfl ha
  · intro st out' h
    cases h with
    | badInfo h => exact absurd rfl (h [])
    | acts extra r _ he ha =>
      generalize hact : Run.actionOf 4 (WinHost.winOptions [str% "C:\\d\\a"]) = act at ha
      cases ha with
      | list => cases hact
      | single config f hf =>
        cases hf
        have hx : extra = [] := by injection he with he; exact he.symm
        subst hx
        have hc : config = winOneConfig := by unfold winOneConfig; rw [hact]
        subst hc
        have h : (singleFile winEdgeEnv (some []) winOneConfig (str% "C:\\d\\a") WinHost.winTwoDisk Output.emptyWorld).1 = .panic := by decide +kernel
        refine ⟨by rw [h]; rfl, ?_⟩
        rcases C134_single (env := winEdgeEnv) sampleSort (some []) winOneConfig (str% "C:\\d\\a") WinHost.winTwoDisk Output.emptyWorld with hs | hs
        · rw [hs] at h
          exact absurd h (by decide +kernel)
        · exact hs.2.1
      | several _ _ _ _ hl => exact absurd rfl hl

/-- Two ELF files of one module, with one worker: the first has a function that reaches 2^32, and the second a public symbol in it. -/
def winEdgePairEnv : Dumper.Env :=
  { WinHost.winEnv with parsers := { WinHost.winEnv.parsers with
      elf := fun b => match b with
        | [1] => .ok { objOf sid true [mA1, .mk 0xFFFFFFF0 0x10 (nm (str% "e")) sampleComp [] []] [] with kind := .other }
        | _ => .ok { objOf sid false [] [⟨some (str% "p"), 0xFFFFFFF8, 0⟩] with kind := .other } } }
def winEdgePairDisk : Cache.World := Dumper.exWorld [(str% "C:\\d\\a", .file [1] true), (str% "C:\\d\\b", .file [1, 1] true)]
def winEdgePairThreads : Threads.Env :=
  threads winEdgePairEnv (some []) winCheckedConfig WinHost.winFiles (fun _ => winEdgePairDisk) Run.exOrders none (str% "x86_64") Output.emptyWorld
def winEdgePairCalls : ObjectInfo → List Output.Todo := WinHost.callsOf winEdgePairEnv.io (some []) winCheckedConfig.output winCheckedConfig.checkCfi

def winEdgePairRun (k : Nat) : List Threads.Turn :=
  [.move .send, .move .send] ++ List.replicate k (.move (.worker 0)) ++ [.move .join]

def winEdgePairLast : Threads.Moment :=
  (steps winEdgePairThreads winEdgePairCalls (winEdgePairRun 8) ⟨Threads.init winEdgePairThreads, Output.emptyWorld, fun _ => []⟩).getD
    ⟨Threads.init winEdgePairThreads, Output.emptyWorld, fun _ => []⟩
def winEdgePairRelease : Threads.Env :=
  WinHost.threads winEdgePairEnv (some []) winCheckedConfig WinHost.winFiles (fun _ => winEdgePairDisk) Run.exOrders none (str% "x86_64") Output.emptyWorld
def winEdgePairStored : Threads.Moment :=
  Run.played winEdgePairRelease winEdgePairCalls Output.emptyWorld (Run.whole ([.send, .send] ++ Threads.steps 0 14 ++ [.join]))

/-- **C134, the bound is needed for merging.** The build with overflow checks reads both files of a module as the release build does, and may then crash when it merges them, with
nothing written; the release build stores the module. -/
theorem C134_merge_witness :
    Exits winEdgePairEnv (str% "1") 4 (WinHost.winOptions WinHost.winFiles) winEdgePairDisk Run.exOrders Output.emptyWorld 101 Output.emptyWorld ∧
    (∀ f ∈ WinHost.winFiles, ∃ o, (parseInput winEdgePairEnv winCheckedConfig none (str% "x86_64") f winEdgePairDisk).1 = .ok o ∧
      (WinHost.parseInput winEdgePairEnv winCheckedConfig none (str% "x86_64") f winEdgePairDisk).1 = .ok o) ∧
    ∃ out', WinHost.Exits winEdgePairEnv (str% "1") 4 (WinHost.winOptions WinHost.winFiles) winEdgePairDisk Run.exOrders Output.emptyWorld 0 out' ∧
      out'.files (str% "C:\\store\\lib.so\\1DE0\\lib.so.sym") ≠ none := by
  refine ⟨?_, ?_, winEdgePairStored.out, ?_, by decide +kernel⟩
  · have h : steps winEdgePairThreads winEdgePairCalls (winEdgePairRun 8) ⟨Threads.init winEdgePairThreads, Output.emptyWorld, fun _ => []⟩ = some winEdgePairLast := by
      have hs : (steps winEdgePairThreads winEdgePairCalls (winEdgePairRun 8) ⟨Threads.init winEdgePairThreads, Output.emptyWorld, fun _ => []⟩).isSome = true := by
        decide +kernel
      obtain ⟨m, hm⟩ := Option.isSome_iff_exists.mp hs
      unfold winEdgePairLast
      rw [hm]; rfl
    have ha : Acts winEdgePairEnv (some []) WinHost.winFiles winEdgePairDisk Run.exOrders Output.emptyWorld (.dump winCheckedConfig) .panic winEdgePairLast.out :=
      .several winCheckedConfig (fun _ => winEdgePairDisk) _ _ (by decide) (fun _ => .start)
        (.crashed none (str% "x86_64") winEdgePairLast rfl (steps_moments .init h) (by decide +kernel))
    exact Exits.acts (o := WinHost.winOptions WinHost.winFiles) (cpus := 4) [] _ _ rfl ha
  · intro f hf
    simp only [WinHost.winFiles, List.mem_cons, List.not_mem_nil, or_false] at hf
    rcases hf with rfl | rfl
    · exact ⟨_, rfl, by decide +kernel⟩
    · exact ⟨_, rfl, by decide +kernel⟩
  · have ha : WinHost.Acts winEdgePairEnv (some []) WinHost.winFiles winEdgePairDisk Run.exOrders Output.emptyWorld (.dump winCheckedConfig) (.ok ()) winEdgePairStored.out :=
      .several winCheckedConfig (fun _ => winEdgePairDisk) _ _ (by decide) (fun _ => .start)
        (.returned none (str% "x86_64") winEdgePairStored rfl (Run.played_moments (by decide +kernel)) (by decide +kernel))
    exact WinHost.Exits.acts (o := WinHost.winOptions WinHost.winFiles) (cpus := 4) [] _ _ rfl ha

/-- The samples, with every file but the PE file `[3]` having a function that reaches 2^32; `[3]` has a PDB file. -/
def winEdgeKindsEnv : Dumper.Env :=
  { WinHost.winEnv with parsers := { WinHost.winEnv.parsers with
      elf := fun _ => .ok { edgeObj with kind := .other }
      pdb := fun _ => .ok { edgeObj with kind := .pdb }
      archive := fun _ => .ok [some { edgeObj with kind := .other }]
      pe := fun b => match b with
        | [3] => some ({ objOf sid true [] [] with kind := .pe }, some (str% "m.pdb"))
        | _ => some ({ edgeObj with kind := .pe }, none) } }
def winEdgeKindsDisk : Cache.World := Dumper.exWorld [(str% "C:\\d\\a", .file [1] true), (str% "C:\\d\\m.pdb", .file [2] true), (str% "C:\\d\\c", .file [4] true),
  (str% "C:\\d\\m.dll", .file [3] true), (str% "C:\\d\\e", .file [3, 1] true)]

/-- **C134, the bound is needed for every kind of file**: an ELF, a PDB, a Mach-O, a PE with its PDB and a PE by itself are read by the release build, and
the build with overflow checks crashes on each. -/
theorem C134_kinds_witness :
    ∀ x ∈ [(str% "C:\\d\\a", Platform.linux), (str% "C:\\d\\m.pdb", .win), (str% "C:\\d\\c", .mac), (str% "C:\\d\\m.dll", .win), (str% "C:\\d\\e", .win)],
      Dumper.headOf (parseInput winEdgeKindsEnv Dumper.exConfig none (str% "x86_64") x.1 winEdgeKindsDisk).1 = .panic ∧
      Dumper.headOf (WinHost.parseInput winEdgeKindsEnv Dumper.exConfig none (str% "x86_64") x.1 winEdgeKindsDisk).1 =
        .ok (str% "lib.so.debug", str% "1DE0", str% "x86_64", x.2) := by
  decide +kernel

end WinChecked
end DumpSyms
