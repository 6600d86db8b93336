import Verif.Props.WinExit
import Verif.Props.RunSamples
/-!
# C114, C115: samples and witnesses
-/
namespace DumpSyms
namespace WinHost
open Threads
open Dumper (Config Env)
open Run (Works Options exOrders exTwo exRun played play played_moments whole failRun actionOf)

/-! ## A run with a store -/

/-- Two inputs with different debug ids. -/
def winFiles : List Str := [str% "C:\\d\\a", str% "C:\\d\\b"]
def winTwoDisk : Cache.World := Dumper.exWorld [(str% "C:\\d\\a", .file [1] true), (str% "C:\\d\\b", .file [4, 1] true)]
def winOut : Output.Out := .store (str% "C:\\store")
def winThreads (output : Output.Out) : Threads.Env :=
  threads winEnv none (exTwo output) winFiles (fun _ => winTwoDisk) exOrders none (str% "x86_64") Output.emptyWorld
def winCalls (output : Output.Out) : ObjectInfo → List Output.Todo := callsOf winEnv.io none output false
def winLast (output : Output.Out) : Moment := played (winThreads output) (winCalls output) Output.emptyWorld (whole exRun)

theorem winRun_ends (output : Output.Out)
    (h1 : (play (winThreads output) (winCalls output) (whole exRun) ⟨init (winThreads output), Output.emptyWorld, fun _ => []⟩).isSome = true)
    (h2 : (winLast output).s.Returned (winThreads output)) :
    SeveralFiles winEnv none (exTwo output) winFiles (fun _ => winTwoDisk) exOrders Output.emptyWorld (.ok ()) (winLast output).out :=
  .returned none (str% "x86_64") _ rfl (played_moments h1) h2

/-- What the two inputs are read as. -/
def winA : ObjectInfo := match (parseInput winEnv (exTwo winOut) none (str% "x86_64") (str% "C:\\d\\a") winTwoDisk).1 with | .ok o => o | _ => plain []
def winB : ObjectInfo := match (parseInput winEnv (exTwo winOut) none (str% "x86_64") (str% "C:\\d\\b") winTwoDisk).1 with | .ok o => o | _ => plain []

theorem winA_eq : (parseInput winEnv (exTwo winOut) none (str% "x86_64") (str% "C:\\d\\a") winTwoDisk).1 = .ok winA := rfl
theorem winB_eq : (parseInput winEnv (exTwo winOut) none (str% "x86_64") (str% "C:\\d\\b") winTwoDisk).1 = .ok winB := rfl
theorem winIds : winA.debugId = str% "E1" ∧ winB.debugId = str% "D1" := ⟨rfl, rfl⟩

theorem winNames : (WinProper winA.fileName ∧ WinProper winA.debugId) ∧ WinProper winB.fileName ∧ WinProper winB.debugId :=
  ⟨⟨winProper_of (by decide), winProper_of (by decide)⟩, winProper_of (by decide), winProper_of (by decide)⟩

theorem winThreads_parse {i : Nat} {o : ObjectInfo} (h : (winThreads winOut).parse i = .ok o) : i = 0 ∧ o = winA ∨ i = 1 ∧ o = winB := by
  match i with
  | 0 =>
    have : (winThreads winOut).parse 0 = .ok winA := winA_eq
    rw [this] at h; cases h; exact .inl ⟨rfl, rfl⟩
  | 1 =>
    have : (winThreads winOut).parse 1 = .ok winB := winB_eq
    rw [this] at h; cases h; exact .inr ⟨rfl, rfl⟩
  | i + 2 =>
    have : (winThreads winOut).parse (i + 2) = .panic := rfl
    rw [this] at h; cases h

theorem winMade {l : List Nat} {o : ObjectInfo} (h : MadeOnce (winThreads winOut) l o) : o = winA ∨ o = winB := by
  obtain ⟨hn, _, h⟩ := h
  cases h with
  | one f o ho => rcases winThreads_parse ho with ⟨_, h⟩ | ⟨_, h⟩ <;> simp [h]
  | more f l o p c ho hm hc =>
    exfalso
    have hid := (merge_ok hc).1
    have hall : ∀ l p, Made (winThreads winOut) l p → (0 ∈ l ∧ p.debugId = str% "E1") ∨ (1 ∈ l ∧ p.debugId = str% "D1") := by
      intro l p h
      induction h with
      | one f o ho => rcases winThreads_parse ho with ⟨rfl, rfl⟩ | ⟨rfl, rfl⟩ <;> simp [winIds]
      | more f l o p c ho _ hc ih =>
        rw [(merge_ok hc).2]
        rcases winThreads_parse ho with ⟨rfl, rfl⟩ | ⟨rfl, rfl⟩ <;> simp [winIds]
    rcases winThreads_parse ho with ⟨rfl, rfl⟩ | ⟨rfl, rfl⟩ <;> rcases hall _ _ hm with ⟨h1, h2⟩ | ⟨h1, h2⟩ <;>
      rw [h2] at hid <;> first | exact absurd hid (by decide) | exact (List.nodup_cons.mp hn).1 h1

theorem winWorks : Works winEnv none (exTwo winOut) (winThreads winOut) where
  mkdirs := fun _ => rfl
  create := fun _ => rfl
  chunks := fun _ => by simp [winEnv, Dumper.exEnv, Output.goodDisk, Output.fullDisk]
  prints := by
    intro l o h
    rcases winMade h with rfl | rfl
    · exact ⟨_, rfl, fun _ => (by decide +kernel : (match winA.display none with | .ok t => (Utf8.encode t).length | _ => 0) ≤ 1000000)⟩
    · exact ⟨_, rfl, fun _ => (by decide +kernel : (match winB.display none with | .ok t => (Utf8.encode t).length | _ => 0) ≤ 1000000)⟩
  cfi := fun h => by cases h

/-- C114 applied: the hypotheses are met, and the store holds the symbol file of the first input. -/
example : ∃ out' o t p, SeveralFiles winEnv none (exTwo winOut) winFiles (fun _ => winTwoDisk) exOrders Output.emptyWorld (.ok ()) out' ∧
    (readSingle winEnv (exTwo winOut) (str% "C:\\d\\a") winTwoDisk).1 = .ok o ∧ o.display none = .ok t ∧
    InStore (str% "C:\\store") o.fileName o.debugId p ∧ out'.files p = some (Utf8.encode t) := by
  obtain ⟨o, t, p, h1, h2, hp, _, _, h3⟩ := C114_same_as_alone winEnv none (exTwo winOut) winFiles (fun _ => winTwoDisk) exOrders Output.emptyWorld _ none
    (str% "x86_64") (by decide) rfl (fun t => .refl _) winStore_plain rfl rfl rfl (by
      intro i f hi
      have hf := List.mem_of_getElem? hi
      simp only [winFiles, List.mem_cons, List.not_mem_nil, or_false] at hf
      rcases hf with rfl | rfl
      · exact ⟨winA, winA_eq, winNames.1⟩
      · exact ⟨winB, winB_eq, winNames.2⟩)
    winWorks (str% "C:\\store") (by decide) rfl (winRun_ends winOut (by decide +kernel) (by decide +kernel)) 0 (str% "C:\\d\\a") rfl (by
      intro j g oj oi hj h1 h2 hid
      match j with
      | 0 => rfl
      | 1 =>
        cases hj
        rw [winB_eq] at h1; cases h1
        rw [winA_eq] at h2; cases h2
        exact absurd hid (by decide)
      | j + 2 => cases hj) winTwoDisk rfl
  exact ⟨_, o, t, p, winRun_ends winOut (by decide +kernel) (by decide +kernel), h1, h2, hp, h3⟩

/-- C114 without a symbol server applied. -/
example : ∃ out' o t p, Acts winEnv none winFiles winTwoDisk exOrders Output.emptyWorld (.dump (exTwo winOut)) (.ok ()) out' ∧
    (readSingle winEnv (exTwo winOut) (str% "C:\\d\\b") winTwoDisk).1 = .ok o ∧ o.display none = .ok t ∧
    InStore (str% "C:\\store") o.fileName o.debugId p ∧ out'.files p = some (Utf8.encode t) := by
  have hacts : Acts winEnv none winFiles winTwoDisk exOrders Output.emptyWorld (.dump (exTwo winOut)) (.ok ()) (winLast winOut).out :=
    .several (exTwo winOut) (fun _ => winTwoDisk) (.ok ()) _ (by decide) (fun _ => .start) (winRun_ends winOut (by decide +kernel) (by decide +kernel))
  obtain ⟨o, t, p, h1, h2, hp, _, _, h3⟩ := C114_no_server winEnv none (exTwo winOut) winFiles winTwoDisk exOrders Output.emptyWorld none
    (str% "x86_64") (by decide) rfl (fun t => .refl _) winStore_plain rfl rfl rfl (by
      intro servers h
      have : getSymServers winEnv.home winTwoDisk.disk none = .ok none := by decide +kernel
      rw [this] at h; cases h) (by
      intro f hf
      simp only [winFiles, List.mem_cons, List.not_mem_nil, or_false] at hf
      rcases hf with rfl | rfl
      · exact ⟨winA, winA_eq, winNames.1⟩
      · exact ⟨winB, winB_eq, winNames.2⟩)
    winWorks (str% "C:\\store") (by decide) rfl (.ok ()) _ hacts rfl 1 (str% "C:\\d\\b") rfl (by
      intro j g oj oi hj h1 h2 hid
      match j with
      | 1 => rfl
      | 0 =>
        cases hj
        rw [winA_eq] at h1; cases h1
        rw [winB_eq] at h2; cases h2
        exact absurd hid (by decide)
      | j + 2 => cases hj)
  exact ⟨_, o, t, p, hacts, h1, h2, hp, h3⟩

/-! ## Status 0 without anything written -/

/-- No directory can be made. -/
def winNoDirs : Dumper.Env := { winEnv with io := { Output.goodDisk with mkdirs := fun _ => false } }

def winOptions (files : List Str) : Options where
  filenames := files
  output := none
  store := some (str% "C:\\store")
  debugId := none
  codeId := none
  symbolServer := none
  checkCfi := false
  arch := str% "x86_64"
  listArch := false
  numJobs := str% "1"
  mappingVar := none
  mappingSrc := none
  mappingDest := none
  mappingFile := none
  inlines := false
  extraInfo := none
  noGenerator := true

def winSameDisk : Cache.World := Dumper.exWorld [(str% "C:\\d\\a", .file [1] true), (str% "C:\\d\\b", .file [1] true)]

def winFailConfig : Config := { Dumper.exConfig with output := .store (str% "C:\\store") }
def winFailThreads : Threads.Env := threads winNoDirs (some []) winFailConfig winFiles (fun _ => winSameDisk) exOrders none (str% "x86_64") Output.emptyWorld
def failRun : List Threads.Action := [.send, .send] ++ steps 0 11 ++ [.join]
def winFailLast : Moment := played winFailThreads (callsOf winNoDirs.io (some []) winFailConfig.output winFailConfig.checkCfi) Output.emptyWorld (whole failRun)

/-- **C115 is false for several files.** The directory of the store cannot be made: the same options give status 1 for one file, and status 0
for two files that make up the same module.  Nothing is written in either case. -/
theorem C115_several_witness :
    (∃ out', Exits winNoDirs (str% "2.3.4") 8 (winOptions winFiles) winSameDisk exOrders Output.emptyWorld 0 out' ∧
      out'.files (str% "C:\\store\\lib.so\\E1\\lib.so.sym") = none ∧ out'.stdout = [] ∧ out'.stderr = []) ∧
    (∃ out', Exits winNoDirs (str% "2.3.4") 8 (winOptions [str% "C:\\d\\a"]) winSameDisk exOrders Output.emptyWorld 1 out') := by
  refine ⟨⟨winFailLast.out, ?_, ?_⟩, ?_⟩
  · exact .acts [] (.ok ()) _ rfl (.several winFailConfig (fun _ => winSameDisk) (.ok ()) _ (by decide) (fun _ => .start) (.returned none (str% "x86_64") winFailLast rfl
      (played_moments (by decide +kernel)) (by decide +kernel)))
  · decide +kernel
  · exact ⟨_, .acts [] (.err _) _ rfl (.single winFailConfig (str% "C:\\d\\a") rfl)⟩

/-! ## Listing -/

/-- A file with one object, then one in which an object cannot be read: the first is listed, the second panics, the third gets no
line. -/
example :
    (listArchs winEnv (Dumper.exWorld [(str% "C:\\d\\b", .file [4, 1] true), (str% "C:\\d\\c", .file [4] true)]).disk
      [str% "C:\\d\\b", str% "C:\\d\\c", str% "C:\\d\\b"] Output.emptyWorld).1 = .panic ∧
    (listArchs winEnv (Dumper.exWorld [(str% "C:\\d\\b", .file [4, 1] true), (str% "C:\\d\\c", .file [4] true)]).disk
      [str% "C:\\d\\b", str% "C:\\d\\c", str% "C:\\d\\b"] Output.emptyWorld).2.stdout =
        Utf8.encode (str% "b contains the following architecture:\narm64\n") := by decide +kernel

theorem ex_part_d : WinDirPart (str% "C:\\d\\") :=
  ⟨str% "C:\\", str% "d\\", rfl, .driveRooted 'C' '\\' _ (by decide) (by decide), .inr ⟨str% "d", '\\', rfl, by decide⟩⟩

def winListDisk : Disk := (Dumper.exWorld [(str% "C:\\d\\b", .file [4, 1] true), (str% "C:\\d\\c", .file [4] true)]).disk

/-- A disk with some files. -/
theorem no_dirs {fs : List (Str × Node)} (h : ∀ x ∈ fs, ∃ raw r, x.2 = .file raw r) :
    ∀ q es, (Dumper.exWorld fs).disk q = some (.dir es) → ∀ e ∈ es, WinProper e := by
  intro q es hq
  obtain ⟨raw, r, e⟩ := h _ (mem_of_lookup hq)
  cases e

theorem winListDisk_dirs : ∀ q es, winListDisk q = some (.dir es) → ∀ e ∈ es, WinProper e := no_dirs (by
  intro x hx
  simp only [List.mem_cons, List.not_mem_nil, or_false] at hx
  rcases hx with rfl | rfl <;> exact ⟨_, _, rfl⟩)

theorem given_d {name : Str} (h : WinProper name) : Given (str% "C:\\d\\" ++ name) := .inr ⟨_, name, rfl, ex_part_d, h⟩

/-- C115 applied to the listing above, which stops at its second file. -/
example : ∃ done rest texts, [str% "C:\\d\\b", str% "C:\\d\\c", str% "C:\\d\\b"] = done ++ rest ∧ ListsAll winEnv winListDisk done texts ∧ rest ≠ [] := by
  obtain ⟨done, rest, texts, h1, h2, _, h4, _⟩ := C115_list_arch winEnv winListDisk winListDisk_dirs [str% "C:\\d\\b", str% "C:\\d\\c", str% "C:\\d\\b"] (by
    intro f hf
    simp only [List.mem_cons, List.not_mem_nil, or_false] at hf
    rcases hf with rfl | rfl | rfl <;> exact given_d (winProper_of (by decide))) Output.emptyWorld
  refine ⟨done, rest, texts, h1, h2, fun h => ?_⟩
  exact absurd (h4.mpr h) (by decide +kernel)

/-- A value that is not accepted, and an architecture that is not known. -/
example : (∃ out', Exits winEnv (str% "2.3.4") 8 { winOptions winFiles with extraInfo := some [str% "a b"] } winTwoDisk exOrders Output.emptyWorld 101 out') ∧
    (∃ out', Exits winEnv (str% "2.3.4") 8 { winOptions winFiles with arch := str% "vax" } winTwoDisk exOrders Output.emptyWorld 1 out') :=
  ⟨⟨_, .badInfo fun e h => by cases h⟩,
   ⟨_, .acts [] (.err _) _ rfl (.several { winFailConfig with arch := str% "vax" } (fun _ => winTwoDisk) (.err _) _ (by decide) (fun _ => .start) (.badOptions _ rfl))⟩⟩

/-- The options of a dump: the number of jobs is not one, the output is standard output and the store. -/
example : ∃ c, actionOf 8 { winOptions winFiles with numJobs := str% "x", output := some ['-'], debugId := some (str% "D") } = .dump c ∧
    c.numJobs = 8 ∧ c.debugId = some (str% "D") ∧ c.codeId = none ∧
    ∀ m fo, Requested c.output m fo ↔ fo = .stdout ∨ ∃ p, InStore (str% "C:\\store") m.fileName m.debugId p ∧ fo = .path p := by
  obtain ⟨c, h, hc⟩ := (C115_config 8 { winOptions winFiles with numJobs := str% "x", output := some ['-'], debugId := some (str% "D") }).2 rfl
  refine ⟨c, h, (hc.jobs 8).mpr (.inr ⟨?_, rfl⟩), hc.search.2.1, hc.search.2.2, ?_⟩
  · intro k hk
    have := Mapping.parseUsize_iff.mpr hk
    exact absurd this (by simp only [show Mapping.parseUsize (str% "x") = none from by decide]; simp)
  · intro m fo
    rw [hc.destinations]
    simp [winOptions]

/-- C115 applied: a dump of one file that ends with status 0. -/
example : ∃ out' c m, Exits winEnv (str% "2.3.4") 8 (winOptions [str% "C:\\d\\a"]) winSameDisk exOrders Output.emptyWorld 0 out' ∧
    Configures 8 (winOptions [str% "C:\\d\\a"]) c ∧ (readSingle winEnv c (str% "C:\\d\\a") winSameDisk).1 = .ok m := by
  have he : Exits winEnv (str% "2.3.4") 8 (winOptions [str% "C:\\d\\a"]) winSameDisk exOrders Output.emptyWorld 0
      (singleFile winEnv (some []) winFailConfig (str% "C:\\d\\a") winSameDisk Output.emptyWorld).2.2 := by
    have hr : (singleFile winEnv (some []) winFailConfig (str% "C:\\d\\a") winSameDisk Output.emptyWorld).1 = .ok () := by decide +kernel
    have := Exits.acts (env := winEnv) (version := str% "2.3.4") (cpus := 8) (o := winOptions [str% "C:\\d\\a"]) (orders := exOrders) []
      (singleFile winEnv (some []) winFailConfig (str% "C:\\d\\a") winSameDisk Output.emptyWorld).1 _ rfl (.single winFailConfig (str% "C:\\d\\a") rfl)
    rw [hr] at this
    exact this
  obtain ⟨_, _, h⟩ := C115_status_partial winEnv (str% "2.3.4") 8 (winOptions [str% "C:\\d\\a"]) winSameDisk exOrders Output.emptyWorld _ (no_dirs (by
    intro x hx
    simp only [List.mem_cons, List.not_mem_nil, or_false] at hx
    rcases hx with rfl | rfl <;> exact ⟨_, _, rfl⟩)) (by
    intro f hf
    simp only [winOptions, List.mem_cons, List.not_mem_nil, or_false] at hf
    subst hf; exact given_d (winProper_of (by decide))) (fun d hd hne => winStore_plain d (.inl (by cases hd; rfl)) hne) he
  obtain ⟨c, m, h1, h2, _⟩ := h rfl (str% "C:\\d\\a") rfl
  exact ⟨_, c, m, he, h1, h2⟩

/-! ## Downloads while other inputs are read -/

/-- A symbol server with a cache is configured, and it has the PDB. -/
def winDlEnv : Dumper.Env := { winEnv with net := Run.dlEnv.net }
def winDlWorld : Cache.World :=
  Dumper.exWorld [(str% "C:\\Users\\u\\.dump_syms\\config", .file (Utf8.encode (str% "srv*D:\\c*http://s")) true),
    (str% "C:\\d\\a.dll", .file [3] true), (str% "C:\\e\\a.dll", .file [3] true)]
/-- The state after the first PE has been read. -/
def winDlAfter : Cache.World := (parseInput winDlEnv Dumper.exConfig none (str% "x86") (str% "C:\\d\\a.dll") winDlWorld).2

theorem winDlSane : Sane winDlEnv winDlWorld.disk where
  dirs := no_dirs (by
    intro x hx
    simp only [List.mem_cons, List.not_mem_nil, or_false] at hx
    rcases hx with rfl | rfl | rfl <;> exact ⟨_, _, rfl⟩)
  room := fun u st raw p h => by cases h; exact (by decide : 1 ≤ 1000)
  arrivals := fun js j h => List.mem_of_mem_take h
  cwd := winPair_sane.cwd
  home := winPair_sane.home

/-- The first worker has put the PDB into the cache, so that the second finds it there and sends no request; and both read the same. -/
example : Meanwhile winDlEnv winDlWorld winDlAfter ∧ winDlWorld.disk (str% "D:\\c\\m.pdb\\A1\\m.pdb") = none ∧
    winDlAfter.disk (str% "D:\\c\\m.pdb\\A1\\m.pdb") = some (.file [2] true) ∧ winDlAfter.log.length = 3 ∧
    Dumper.headOf (parseInput winDlEnv Dumper.exConfig none (str% "x86") (str% "C:\\e\\a.dll") winDlAfter).1 = .ok (str% "m.pdb", str% "A1", str% "x86", .win) ∧
    (parseInput winDlEnv Dumper.exConfig none (str% "x86") (str% "C:\\e\\a.dll") winDlAfter).2.log.length = 3 ∧
    Dumper.headOf (parseInput winDlEnv Dumper.exConfig none (str% "x86") (str% "C:\\e\\a.dll") winDlWorld).1 = .ok (str% "m.pdb", str% "A1", str% "x86", .win) :=
  ⟨parse_meanwhile winDlSane _ _ _ _, by decide +kernel, by decide +kernel, by decide +kernel, by decide +kernel, by decide +kernel, by decide +kernel⟩

end WinHost
end DumpSyms
