import Verif.Props.WinAgain
import Verif.Props.WinRunSamples
import Verif.Props.Downloads
/-!
# C131: inputs of one run that need the same file from a symbol server, on a Windows machine
-/
namespace DumpSyms
namespace WinHost
open WinPath
open Dumper (Env Config prepare)
open Run (Options actionOf exOrders played played_moments whole)

/-! ## What holds -/

/-- What could be read at the start can be read at any later moment, with the same contents. -/
theorem Meanwhile.reads {env : Env} {w w' : Cache.World} (h : Meanwhile env w w') {cab : Cab} {f : Str} {b : Bytes}
    (hb : readFile cab w.disk f = .ok b) : readFile cab w'.disk f = .ok b := by
  have hfile : ∀ p, (match w.disk p with
      | some (.file raw true) => (match readCabinet cab raw p with | .ok (some r) => Res.ok r | _ => .panic)
      | _ => .panic) = .ok b → (match w'.disk p with
      | some (.file raw true) => (match readCabinet cab raw p with | .ok (some r) => Res.ok r | _ => .panic)
      | _ => .panic) = .ok b := by
    intro p hp
    cases hw : w.disk p with
    | none => rw [hw] at hp; cases hp
    | some n => rw [h.keeps hw, ← hw]; exact hp
  unfold readFile at hb ⊢
  simp only at hb ⊢
  cases hw : w.disk f with
  | none => rw [hw] at hb; cases hb
  | some n =>
    rw [hw] at hb
    rw [h.keeps hw]
    cases n with
    | file raw r => exact hfile f hb
    | dir es =>
      simp only [macBundle] at hb ⊢
      cases hd : w.disk (push f (str% "Contents/Resources/DWARF")) with
      | none => rw [hd] at hb; cases hb
      | some n =>
        rw [hd] at hb
        rw [h.keeps hd]
        cases n with
        | file raw r => cases hb
        | dir es' =>
          match es', hb with
          | [e], hb => exact hfile _ hb

/-- **C131, files that need nothing else.** Whatever the other workers are downloading, an input that can be read at the start and is neither a PE
nor a PDB file gives what it would give alone. -/
theorem C131_other_formats_partial {env : Env} {w w' : Cache.World} (h : Meanwhile env w w') (config : Config)
    (mapping : Option (List Mapping.Generator)) (arch f : Str) {b : Bytes} (hb : readFile env.net.cab w.disk f = .ok b)
    (hpe : env.parsers.peek b ≠ .pe) (hpdb : env.parsers.peek b ≠ .pdb) :
    (parseInput env config mapping arch f w').1 = (parseInput env config mapping arch f w).1 := by
  unfold parseInput
  rw [hb, h.reads hb]
  cases getFilename f with
  | err m => rfl
  | panic => rfl
  | ok filename =>
    simp only [getObjectInfo]
    cases hp : env.parsers.peek b with
    | pe => exact absurd hp hpe
    | pdb => exact absurd hp hpdb
    | elf => rfl
    | machO => rfl
    | other => rfl

/-- **C131, no symbol server.** If none is configured, every input gives what it would give alone. -/
theorem C131_no_server_partial {env : Env} {w w' : Cache.World} (h : Meanwhile env w w')
    (hno : ∀ servers, getSymServers env.home w.disk none ≠ .ok (some servers)) (config : Config)
    (mapping : Option (List Mapping.Generator)) (arch f : Str) :
    (parseInput env config mapping arch f w').1 = (parseInput env config mapping arch f w).1 :=
  (parse_start h hno config mapping arch f).symm

/-- **C131, finished downloads.** An input that is given a second time, and read when the worker that reads it the first time has done so, gives the same
and downloads nothing into the caches.  Missing: the second worker reads while the first one is at it. -/
theorem C131_finished_partial {env : Env} {w : Cache.World} (hs : Sane env w.disk) (config : Config)
    {mapping : Option (List Mapping.Generator)} {arch : Str} (hprep : prepare env config = .ok (mapping, arch)) {pre filename : Str}
    (hp : WinDirPart pre) (hn : WinProper filename) (hca : SaneCaches env none w.disk)
    (hpe : ∀ b, PathHolds env.net.cab w.disk (pre ++ filename) b → SanePe env b) {m : ObjectInfo}
    (h : (parseInput env config mapping arch (pre ++ filename) w).1 = .ok m) {w1 : Cache.World}
    (hw : w1 = (parseInput env config mapping arch (pre ++ filename) w).2) :
    (∀ w', w'.disk = w1.disk → (parseInput env config mapping arch (pre ++ filename) w').1 = .ok m) ∧
      (parseInput env config mapping arch (pre ++ filename) w1).2.disk = w1.disk := by
  let config' : Config := { config with symbolServer := none, debugId := none, codeId := none }
  have hprep' : prepare env config' = .ok (mapping, arch) := hprep
  have hrp : ∀ v, readSingle env config' (pre ++ filename) v = parseInput env config mapping arch (pre ++ filename) v :=
    fun v => readSingle_parse env config' (pre ++ filename) v rfl rfl rfl hprep'
  obtain ⟨⟨w2, a1, a2⟩, _⟩ := read_again (config := config') hp hn hs (by rintro id (h | h) <;> cases h) hca
    (fun b v hc => by
      cases hc with
      | byPath _ _ _ h3 => exact hpe b h3
      | byId id servers _ _ g => rcases g with g | ⟨_, g⟩ <;> cases g)
    (show readSingle env config' (pre ++ filename) w = (.ok m, w1) by rw [hrp, hw]; exact Prod.ext h rfl)
  rw [hrp] at a1
  refine ⟨fun w' hd => ?_, by rw [a1]; exact a2⟩
  obtain ⟨d, l⟩ := w'
  obtain ⟨d1, l1⟩ := w1
  simp only at hd
  subst hd
  rw [parse_log env config mapping arch _ _ l l1, a1]

/-! ## What does not -/

/-- The file that both inputs need, in the cache. -/
def winDlPath : Str := str% "D:\\c\\m.pdb\\A1\\m.pdb"

/-- Some of the file has been written. -/
theorem winDl_meanwhile {env : Env} (hp : env.parsers = winEnv.parsers) (hh : env.home = winEnv.home) (data : Bytes) :
    Meanwhile env winDlWorld { winDlWorld with disk := winDlWorld.disk.write winDlPath data } :=
  .cached winDlWorld [⟨some (str% "D:\\c"), str% "http://s"⟩] ⟨some (str% "D:\\c"), str% "http://s"⟩ (str% "D:\\c") (str% "m.pdb") [3]
    ⟨str% "A1", some (str% "C:\\x/m.pdb")⟩ data .start (by rw [hh]; decide +kernel) (.head _) rfl ⟨str% "m.pdb", by decide⟩
    (by unfold Dumper.parsePe; rw [hp]; decide +kernel) (by decide +kernel)

/-- The first worker has created the file and written nothing to it yet. -/
def winDlHalf : Cache.World := { winDlWorld with disk := winDlWorld.disk.write winDlPath ([2].take 0) }

/-- **C131 is false: a module without its functions.** While the first worker is writing the PDB of `C:\d\a.dll` to the cache, the second one finds the file
there, cannot make sense of it, and gives a module without any function for `C:\e\a.dll`, which alone gives one with a function. -/
theorem C131_lost_witness : Cache.StoppedDisk winDlWorld.disk winDlPath [2] winDlHalf.disk ∧ Meanwhile winDlEnv winDlWorld winDlHalf ∧
    Run.sizeOf (parseInput winDlEnv Dumper.exConfig none (str% "x86") (str% "C:\\e\\a.dll") winDlWorld).1 = .ok 1 ∧
    Run.sizeOf (parseInput winDlEnv Dumper.exConfig none (str% "x86") (str% "C:\\e\\a.dll") winDlHalf).1 = .ok 0 :=
  ⟨.during 0 (by decide), winDl_meanwhile (env := winDlEnv) rfl rfl _, by decide +kernel, by decide +kernel⟩

/-- The server has the PDB in a cabinet, `[5, 5, 2]`; without its end it has an entry that cannot be read. -/
def winCabEnv : Env := { winEnv with net := Run.cabEnv.net }
def winDlFiles : List Str := [str% "C:\\d\\a.dll", str% "C:\\e\\a.dll"]
def winCabOptions : Options := { winOptions winDlFiles with numJobs := str% "2" }
def winCabConfig : Config := match actionOf 4 winCabOptions with | .dump c => c | _ => Dumper.exConfig
/-- The first worker has written two bytes of the cabinet. -/
def winCabHalf : Cache.World := { winDlWorld with disk := winDlWorld.disk.write winDlPath ([5, 5, 2].take 2) }
/-- What the second input is read from. -/
def winCabWorlds (second : Cache.World) : Nat → Cache.World := fun i => if i = 1 then second else winDlWorld
def winCabThreads (second : Cache.World) : Threads.Env :=
  threads winCabEnv (some []) winCabConfig winDlFiles (winCabWorlds second) exOrders none (str% "x86_64") Output.emptyWorld
/-- The worker 1 takes the first input, then the worker 0 takes the second one. -/
def winCabLast : Threads.Moment :=
  played (winCabThreads winCabHalf) (callsOf winCabEnv.io (some []) winCabConfig.output winCabConfig.checkCfi) Output.emptyWorld
    (whole ([.send, .send] ++ Threads.steps 1 1 ++ Threads.steps 0 2 ++ [.join]))
/-- Each input read as it would be alone. -/
def winCabGood : Threads.Moment :=
  played (winCabThreads winDlWorld) (callsOf winCabEnv.io (some []) winCabConfig.output winCabConfig.checkCfi) Output.emptyWorld
    (whole ([.send, .send] ++ Threads.steps 0 15 ++ Threads.steps 1 1 ++ [.join, .join]))

/-- **C131 is false: a crash.** Each of two inputs can be dumped alone, and a run on both can end with status 0; but it can also crash, when the second worker
reads from the cache what the first one has not finished writing there. -/
theorem C131_crash_witness : Cache.StoppedDisk winDlWorld.disk winDlPath [5, 5, 2] winCabHalf.disk ∧
    (∀ f ∈ winCabOptions.filenames, ∃ out', Exits winCabEnv (str% "1.0") 4 { winCabOptions with filenames := [f] } winDlWorld exOrders Output.emptyWorld 0 out') ∧
    (∃ out', Exits winCabEnv (str% "1.0") 4 winCabOptions winDlWorld exOrders Output.emptyWorld 0 out' ∧ out'.files (str% "C:\\store\\m.pdb\\A1\\m.sym") ≠ none) ∧
    ∃ out', Exits winCabEnv (str% "1.0") 4 winCabOptions winDlWorld exOrders Output.emptyWorld 101 out' ∧ out'.files (str% "C:\\store\\m.pdb\\A1\\m.sym") = none := by
  refine ⟨.during 2 (by decide), ?_, ⟨winCabGood.out, ?_, by decide +kernel⟩, ⟨winCabLast.out, ?_, by decide +kernel⟩⟩
  · intro f hf
    have hone : ∀ f, (singleFile winCabEnv (some []) winCabConfig f winDlWorld Output.emptyWorld).1 = .ok () →
        ∃ out', Exits winCabEnv (str% "1.0") 4 { winCabOptions with filenames := [f] } winDlWorld exOrders Output.emptyWorld 0 out' := by
      intro f h
      refine ⟨(singleFile winCabEnv (some []) winCabConfig f winDlWorld Output.emptyWorld).2.2, ?_⟩
      have := Exits.acts (env := winCabEnv) (version := str% "1.0") (cpus := 4) (o := { winCabOptions with filenames := [f] }) (orders := exOrders) []
        (singleFile winCabEnv (some []) winCabConfig f winDlWorld Output.emptyWorld).1 _ rfl (.single winCabConfig f rfl)
      rw [h] at this
      exact this
    simp only [winCabOptions, winOptions, winDlFiles, List.mem_cons, List.not_mem_nil, or_false] at hf
    rcases hf with rfl | rfl
    · exact hone _ (by decide +kernel)
    · exact hone _ (by decide +kernel)
  · exact .acts [] (.ok ()) _ rfl (.several winCabConfig (winCabWorlds winDlWorld) (.ok ()) _ (by decide)
      (fun i => by unfold winCabWorlds; split <;> exact .start)
      (.returned none (str% "x86_64") winCabGood rfl (played_moments (by decide +kernel)) (by decide +kernel)))
  · exact .acts [] .panic _ rfl (.several winCabConfig (winCabWorlds winCabHalf) .panic _ (by decide)
      (fun i => by
        unfold winCabWorlds
        split
        · exact winDl_meanwhile (env := winCabEnv) rfl rfl _
        · exact .start)
      (.crashed none (str% "x86_64") winCabLast rfl (played_moments (by decide +kernel)) (by decide +kernel)))

/-! ## The theorems applied -/

/-- A run on an ELF file and a PE file: the ELF file is read while the PDB of the other one is half there. -/
def winMixWorld : Cache.World :=
  Dumper.exWorld [(str% "C:\\Users\\u\\.dump_syms\\config", .file (Utf8.encode (str% "srv*D:\\c*http://s")) true), (str% "C:\\d\\a.dll", .file [3] true),
    (str% "C:\\e\\l.so", .file [1] true)]
example : ∃ w, Meanwhile winCabEnv winMixWorld w ∧ w.disk winDlPath = some (.file [5] true) ∧
    Dumper.headOf (parseInput winCabEnv Dumper.exConfig none (str% "x86") (str% "C:\\e\\l.so") w).1 = .ok (str% "lib.so", str% "E1", str% "x86_64", .linux) := by
  have h : Meanwhile winCabEnv winMixWorld { winMixWorld with disk := winMixWorld.disk.write winDlPath [5] } :=
    .cached winMixWorld [⟨some (str% "D:\\c"), str% "http://s"⟩] ⟨some (str% "D:\\c"), str% "http://s"⟩ (str% "D:\\c") (str% "m.pdb") [3]
      ⟨str% "A1", some (str% "C:\\x/m.pdb")⟩ [5] .start (by decide +kernel) (.head _) rfl ⟨str% "m.pdb", by decide⟩ (by decide +kernel) (by decide +kernel)
  refine ⟨_, h, by decide +kernel, ?_⟩
  rw [C131_other_formats_partial h Dumper.exConfig none (str% "x86") (str% "C:\\e\\l.so") (b := [1]) (by decide +kernel) (by decide +kernel) (by decide +kernel)]
  decide +kernel

/-- The PE given again when its PDB has been put into the cache. -/
example (m : ObjectInfo) (h : (parseInput winDlEnv winCabConfig none (str% "x86_64") (str% "C:\\d\\" ++ str% "a.dll") winDlWorld).1 = .ok m) (w1 : Cache.World)
    (hw : w1 = (parseInput winDlEnv winCabConfig none (str% "x86_64") (str% "C:\\d\\" ++ str% "a.dll") winDlWorld).2) (log : List Cache.Request) :
    (parseInput winDlEnv winCabConfig none (str% "x86_64") (str% "C:\\d\\" ++ str% "a.dll") { w1 with log := log }).1 = .ok m := by
  have hdir : WinDirPart (str% "C:\\d\\") :=
    ⟨str% "C:\\", str% "d\\", rfl, .driveRooted 'C' '\\' _ (by decide) (by decide), .inr ⟨str% "d", '\\', rfl, by decide⟩⟩
  refine (C131_finished_partial winDlSane winCabConfig rfl hdir (winProper_of (by decide)) ?_ ?_ h hw).1 _ rfl
  · intro ss h
    have := ((C110_configured winDlEnv.home winDlWorld.disk none winDlSane.home).1 _).mpr h
    rw [show getSymServers winDlEnv.home winDlWorld.disk none = .ok (some [⟨some (str% "D:\\c"), str% "http://s"⟩]) by decide +kernel] at this
    cases this
    intro s hs c hc
    cases List.mem_singleton.mp hs
    cases hc
    exact ⟨_, _, _, .driveRooted 'D' '\\' _ (by decide) (by decide)⟩
  · intro b hb pe rec hp
    have := ((readFile_path winDlEnv.net.cab winDlWorld.disk (pre := str% "C:\\d\\") (name := str% "a.dll") (a := str% "C:\\") (s := str% "d\\a.dll")
      (.driveRooted 'C' '\\' _ (by decide) (by decide)) rfl hdir (winProper_of (by decide)) winDlSane.dirs).1 b).mpr hb
    rw [show readFile winDlEnv.net.cab winDlWorld.disk (str% "C:\\d\\" ++ str% "a.dll") = .ok [3] by decide +kernel] at this
    cases this
    cases hp
    refine ⟨winProper_of (by decide), ?_⟩
    intro r hr
    cases hr
    exact .inr ⟨str% "C:\\x/", str% "m.pdb", rfl,
      ⟨str% "C:\\", str% "x/", rfl, .driveRooted 'C' '\\' _ (by decide) (by decide), .inr ⟨str% "x", '/', rfl, by decide⟩⟩, winProper_of (by decide)⟩
example : Run.sizeOf (parseInput winDlEnv winCabConfig none (str% "x86_64") (str% "C:\\d\\" ++ str% "a.dll") winDlWorld).1 = .ok 1 := by decide +kernel

/-- Without a configuration file nothing is downloaded meanwhile. -/
example (w' : Cache.World) (h : Meanwhile winDlEnv winAgainDisk w') :
    Dumper.headOf (parseInput winDlEnv winCabConfig none (str% "x86_64") (str% "C:\\w\\a.dll") w').1 = .ok (str% "m.pdb", str% "A1", str% "x86", .win) := by
  rw [C131_no_server_partial h (fun servers => by
    rw [show getSymServers winDlEnv.home winAgainDisk.disk none = .ok none by decide +kernel]
    exact fun h => by cases h)]
  decide +kernel

end WinHost
end DumpSyms
