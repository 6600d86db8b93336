import Verif.Props.CrashSeveral
import Verif.Props.Again
/-!
# C97: inputs of one run that need the same file from a symbol server
-/
namespace DumpSyms
namespace Run
open Dumper

/-! ## What holds -/

/-- What could be read at the start can be read at any later moment, with the same contents. -/
theorem Meanwhile.reads {env : Env} {w w' : Cache.World} (h : Meanwhile env w w') {cab : Cab} {f : Str} {b : Bytes}
    (hb : Files.readFile cab w.disk f = .ok b) : Files.readFile cab w'.disk f = .ok b := by
  have hfile : ∀ p, (match w.disk p with
      | some (.file raw true) => (match Files.readCabinet cab raw p with | .ok (some r) => Res.ok r | _ => .panic)
      | _ => .panic) = .ok b → (match w'.disk p with
      | some (.file raw true) => (match Files.readCabinet cab raw p with | .ok (some r) => Res.ok r | _ => .panic)
      | _ => .panic) = .ok b := by
    intro p hp
    cases hw : w.disk p with
    | none => rw [hw] at hp; cases hp
    | some n => rw [h.keeps hw, ← hw]; exact hp
  unfold Files.readFile at hb ⊢
  simp only at hb ⊢
  cases hw : w.disk f with
  | none => rw [hw] at hb; cases hb
  | some n =>
    rw [hw] at hb
    rw [h.keeps hw]
    cases n with
    | file raw r => exact hfile f hb
    | dir es =>
      simp only [Files.macBundle] at hb ⊢
      cases hd : w.disk (Path.push f (str% "Contents/Resources/DWARF")) with
      | none => rw [hd] at hb; cases hb
      | some n =>
        rw [hd] at hb
        rw [h.keeps hd]
        cases n with
        | file raw r => cases hb
        | dir es' =>
          match es', hb with
          | [e], hb => exact hfile _ hb

/-- **C97, files that need nothing else.** Whatever the other workers are downloading, an input that can be read at the start and is neither a PE
nor a PDB file gives what it would give alone. -/
theorem C97_other_formats_partial {env : Env} {w w' : Cache.World} (h : Meanwhile env w w') (config : Config)
    (mapping : Option (List Mapping.Generator)) (arch f : Str) {b : Bytes} (hb : Files.readFile env.net.cab w.disk f = .ok b)
    (hpe : env.parsers.peek b ≠ .pe) (hpdb : env.parsers.peek b ≠ .pdb) :
    (parseInput env config mapping arch f w').1 = (parseInput env config mapping arch f w).1 := by
  unfold parseInput
  rw [hb, h.reads hb]
  cases Utils.getFilename f with
  | err m => rfl
  | panic => rfl
  | ok filename =>
    simp only [getObjectInfo]
    cases hp : env.parsers.peek b with
    | pe => exact absurd hp hpe
    | pdb => exact absurd hp hpdb
    | elf => rfl
    | machO => rfl
    | other => rfl

/-- **C97, no symbol server.** When no symbol server is configured every input gives what it would give alone. -/
theorem C97_no_server_partial {env : Env} {w w' : Cache.World} (h : Meanwhile env w w')
    (hno : ∀ servers, Cache.getSymServers env.home w.disk none ≠ .ok (some servers)) (config : Config)
    (mapping : Option (List Mapping.Generator)) (arch f : Str) :
    (parseInput env config mapping arch f w').1 = (parseInput env config mapping arch f w).1 :=
  (parse_start h hno config mapping arch f).symm

/-- **C97, finished downloads.** An input that is given a second time, and read when the worker that reads it the first time has done so, gives the same
and downloads nothing into the caches.  Missing: the second worker reads while the first one is at it. -/
theorem C97_finished_partial {env : Env} {w : Cache.World} (hs : Sane env w.disk)
    (hpe : ∀ b pe r, env.parsers.pe b = some (pe, r) → ProperComp pe.debugId) (config : Config)
    (mapping : Option (List Mapping.Generator)) (arch f : Str) {m : ObjectInfo} (h : (parseInput env config mapping arch f w).1 = .ok m)
    {w' : Cache.World} (hw : w'.disk = (parseInput env config mapping arch f w).2.disk) :
    (parseInput env config mapping arch f w').1 = .ok m ∧ (parseInput env config mapping arch f w').2.disk = w'.disk := by
  have hmw := parse_meanwhile hs config mapping arch f
  unfold parseInput at h hw hmw ⊢
  cases hn : Utils.getFilename f with
  | err m => rw [hn] at h; cases h
  | panic => rw [hn] at h; cases h
  | ok filename =>
    rw [hn] at h hw hmw
    simp only at h hw hmw ⊢
    cases hb : Files.readFile env.net.cab w.disk f with
    | err m => rw [hb] at h; cases h
    | panic => rw [hb] at h; cases h
    | ok b =>
      rw [hb] at h hw hmw
      simp only at h hw hmw ⊢
      have := hmw.reads hb
      rw [← hw] at this
      rw [this]
      have ag := object_again hs.arrivals hs.room hpe h hw
      exact ⟨ag.1, ag.2.1⟩

/-! ## What does not -/

/-- The file that both inputs need, in the cache. -/
def dlPath : Str := str% "/c/m.pdb/A1/m.pdb"

/-- Some of the file has been written. -/
theorem dl_meanwhile {env : Env} (hp : env.parsers = exParsers) (hh : env.home = exEnv.home) (data : Bytes) :
    Meanwhile env dlWorld { dlWorld with disk := dlWorld.disk.write dlPath data } :=
  .cached dlWorld [⟨some (str% "/c"), str% "http://s"⟩] ⟨some (str% "/c"), str% "http://s"⟩ (str% "/c") (str% "m.pdb") [3]
    ⟨str% "A1", some (str% "C:\\x/m.pdb")⟩ data .start (by rw [hh]; decide +kernel) (.head _) rfl ⟨str% "m.pdb", by decide⟩
    (by unfold parsePe; rw [hp]; decide +kernel) (by decide +kernel)

/-- The first worker has created the file and written nothing to it yet. -/
def dlHalf : Cache.World := { dlWorld with disk := dlWorld.disk.write dlPath ([2].take 0) }

/-- The number of FUNC and PUBLIC records of what an input gives. -/
def sizeOf (r : Res ObjectInfo) : Res Nat := r.map fun o => o.symbols.length

/-- **C97 is false: a module without its functions.** While the first worker is writing the PDB of `/d/a.dll` to the cache, the second one finds the file
there, cannot make sense of it, and gives a module without any function for `/e/a.dll`, which alone gives one with a function. -/
theorem C97_lost_witness : Cache.StoppedDisk dlWorld.disk dlPath [2] dlHalf.disk ∧ Meanwhile dlEnv dlWorld dlHalf ∧
    sizeOf (parseInput dlEnv exConfig none (str% "x86") (str% "/e/a.dll") dlWorld).1 = .ok 1 ∧
    sizeOf (parseInput dlEnv exConfig none (str% "x86") (str% "/e/a.dll") dlHalf).1 = .ok 0 :=
  ⟨.during 0 (by decide), dl_meanwhile (env := dlEnv) rfl rfl _, by decide +kernel, by decide +kernel⟩

/-- The server has the PDB in a cabinet, `[5, 5, 2]`; without its end it has an entry that cannot be read. -/
def cabEnv : Env :=
  { dlEnv with net := { dlEnv.net with
      get := fun _ => some (200, [5, 5, 2])
      cab := fun b => if b = [5, 5, 2] then some [(str% "m.pdb", some [2])] else if b = [5, 5] then some [(str% "m.pdb", none)] else none } }
def cabOptions : Options := { exOptions [str% "/d/a.dll", str% "/e/a.dll"] with numJobs := str% "2" }
def cabConfig : Config := match actionOf 4 cabOptions with | .dump c => c | _ => exConfig
/-- The first worker has written two bytes of the cabinet. -/
def cabHalf : Cache.World := { dlWorld with disk := dlWorld.disk.write dlPath ([5, 5, 2].take 2) }
/-- What the second input is read from. -/
def cabWorlds (second : Cache.World) : Nat → Cache.World := fun i => if i = 1 then second else dlWorld
def cabThreads (second : Cache.World) : Threads.Env :=
  threads cabEnv (some []) cabConfig [str% "/d/a.dll", str% "/e/a.dll"] (cabWorlds second) exOrders none (str% "x86_64") Output.emptyWorld
/-- The worker 1 takes the first input, then the worker 0 takes the second one. -/
def cabLast : Threads.Moment :=
  played (cabThreads cabHalf) (Output.callsOf cabEnv.io (some []) cabConfig.output cabConfig.checkCfi) Output.emptyWorld
    (whole ([.send, .send] ++ Threads.steps 1 1 ++ Threads.steps 0 2 ++ [.join]))
/-- Each input read as it would be alone. -/
def cabGood : Threads.Moment :=
  played (cabThreads dlWorld) (Output.callsOf cabEnv.io (some []) cabConfig.output cabConfig.checkCfi) Output.emptyWorld
    (whole ([.send, .send] ++ Threads.steps 0 15 ++ Threads.steps 1 1 ++ [.join, .join]))

/-- **C97 is false: a crash.** Each of two inputs can be dumped alone, and a run on both can end with status 0; but it can also crash, when the second worker
reads from the cache what the first one has not finished writing there. -/
theorem C97_crash_witness : Cache.StoppedDisk dlWorld.disk dlPath [5, 5, 2] cabHalf.disk ∧
    (∀ f ∈ cabOptions.filenames, ∃ out', Exits cabEnv (str% "1.0") 4 { cabOptions with filenames := [f] } dlWorld exOrders Output.emptyWorld 0 out') ∧
    (∃ out', Exits cabEnv (str% "1.0") 4 cabOptions dlWorld exOrders Output.emptyWorld 0 out' ∧ out'.files (str% "/s/m.pdb/A1/m.sym") ≠ none) ∧
    ∃ out', Exits cabEnv (str% "1.0") 4 cabOptions dlWorld exOrders Output.emptyWorld 101 out' ∧ out'.files (str% "/s/m.pdb/A1/m.sym") = none := by
  refine ⟨.during 2 (by decide), ?_, ⟨cabGood.out, ?_, by decide +kernel⟩, ⟨cabLast.out, ?_, by decide +kernel⟩⟩
  · intro f hf
    have hone : ∀ f, (singleFile cabEnv (some []) cabConfig f dlWorld Output.emptyWorld).1 = .ok () →
        ∃ out', Exits cabEnv (str% "1.0") 4 { cabOptions with filenames := [f] } dlWorld exOrders Output.emptyWorld 0 out' := by
      intro f h
      refine ⟨(singleFile cabEnv (some []) cabConfig f dlWorld Output.emptyWorld).2.2, ?_⟩
      have := Exits.acts (env := cabEnv) (version := str% "1.0") (cpus := 4) (o := { cabOptions with filenames := [f] }) (orders := exOrders) []
        (singleFile cabEnv (some []) cabConfig f dlWorld Output.emptyWorld).1 _ rfl (.single cabConfig f rfl)
      rw [h] at this
      exact this
    simp only [cabOptions, exOptions, List.mem_cons, List.not_mem_nil, or_false] at hf
    rcases hf with rfl | rfl
    · exact hone _ (by decide +kernel)
    · exact hone _ (by decide +kernel)
  · exact .acts [] (.ok ()) _ rfl (.several cabConfig (cabWorlds dlWorld) (.ok ()) _ (by decide)
      (fun i => by unfold cabWorlds; split <;> exact .start)
      (.returned none (str% "x86_64") cabGood rfl (played_moments (by decide +kernel)) (by decide +kernel)))
  · exact .acts [] .panic _ rfl (.several cabConfig (cabWorlds cabHalf) .panic _ (by decide)
      (fun i => by
        unfold cabWorlds
        split
        · exact dl_meanwhile (env := cabEnv) rfl rfl _
        · exact .start)
      (.crashed none (str% "x86_64") cabLast rfl (played_moments (by decide +kernel)) (by decide +kernel)))

/-! ## The theorems applied -/

/-- A run on an ELF file and a PE file: the ELF file is read while the PDB of the other one is half there. -/
def mixWorld : Cache.World :=
  exWorld [(str% "/home/u/.dump_syms/config", .file (Utf8.encode (str% "srv*/c*http://s")) true), (str% "/d/a.dll", .file [3] true),
    (str% "/e/l.so", .file [1] true)]
example : ∃ w, Meanwhile cabEnv mixWorld w ∧ w.disk dlPath = some (.file [5] true) ∧
    headOf (parseInput cabEnv exConfig none (str% "x86") (str% "/e/l.so") w).1 = .ok (str% "lib.so", str% "E1", str% "x86_64", .linux) := by
  have h : Meanwhile cabEnv mixWorld { mixWorld with disk := mixWorld.disk.write dlPath [5] } :=
    .cached mixWorld [⟨some (str% "/c"), str% "http://s"⟩] ⟨some (str% "/c"), str% "http://s"⟩ (str% "/c") (str% "m.pdb") [3]
      ⟨str% "A1", some (str% "C:\\x/m.pdb")⟩ [5] .start (by decide +kernel) (.head _) rfl ⟨str% "m.pdb", by decide⟩ (by decide +kernel) (by decide +kernel)
  refine ⟨_, h, by decide +kernel, ?_⟩
  rw [C97_other_formats_partial h exConfig none (str% "x86") (str% "/e/l.so") (b := [1]) (by decide +kernel) (by decide +kernel) (by decide +kernel)]
  decide +kernel

/-- An input that is given twice, the second time when the first download has ended. -/
example : ∃ w m, w.disk dlPath = some (.file [2] true) ∧ (parseInput dlEnv exConfig none (str% "x86") (str% "/d/a.dll") dlWorld).1 = .ok m ∧
    (parseInput dlEnv exConfig none (str% "x86") (str% "/d/a.dll") w).1 = .ok m ∧ m.symbols.length = 1 := by
  have hm : sizeOf (parseInput dlEnv exConfig none (str% "x86") (str% "/d/a.dll") dlWorld).1 = .ok 1 := by decide +kernel
  generalize hr : (parseInput dlEnv exConfig none (str% "x86") (str% "/d/a.dll") dlWorld).1 = r at hm
  cases r with
  | err m => cases hm
  | panic => cases hm
  | ok m =>
    refine ⟨dlAfter, m, by decide +kernel, rfl, (C97_finished_partial dlSane ?_ exConfig none (str% "x86") (str% "/d/a.dll") hr rfl).1, ?_⟩
    · intro b pe r h
      have h : exParsers.pe b = some (pe, r) := h
      unfold exParsers at h
      simp only at h
      split at h
      · cases h; unfold ProperComp; decide
      · cases h; unfold ProperComp; decide
      · cases h
    · simpa [sizeOf, Res.map] using hm

end Run
end DumpSyms
