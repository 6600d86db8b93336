import Verif.Props.Meanwhile
/-!
# C68–C71: samples and witnesses
-/
namespace DumpSyms
namespace Run
open Dumper Threads

/-! ## Runs call by call -/

/-- A worker makes up to `n` calls, each taking all the bytes it is given. -/
def drain (T : Threads.Env) (calls : ObjectInfo → List Output.Todo) (i : Nat) : Nat → Moment → Moment
  | 0, m => m
  | n + 1, m =>
    match (Turn.call i 1000000).go T calls m with
    | some m' => drain T calls i n m'
    | none => m

/-- What happens next: one step, or all the calls that a worker has to make. -/
inductive Play where
  | turn (t : Turn)
  | calls (i : Nat)

def play (T : Threads.Env) (calls : ObjectInfo → List Output.Todo) : List Play → Moment → Option Moment
  | [], m => some m
  | .turn t :: ps, m => (t.go T calls m).bind (play T calls ps)
  | .calls i :: ps, m => play T calls ps (drain T calls i 9 m)

/-- A worker makes all its calls before it moves. -/
def whole (as : List Threads.Action) : List Play :=
  as.flatMap fun a => match a with
    | .worker i => [.calls i, .turn (.move (.worker i))]
    | a => [.turn (.move a)]

/-- What a sequence of steps ends in. -/
def played (T : Threads.Env) (calls : ObjectInfo → List Output.Todo) (out : Output.World) (ps : List Play) : Moment :=
  (play T calls ps ⟨init T, out, fun _ => []⟩).getD ⟨init T, out, fun _ => []⟩

theorem drain_moments {T : Threads.Env} {calls : ObjectInfo → List Output.Todo} {out : Output.World} (i n : Nat) {m : Moment}
    (h : Moments T calls out m) : Moments T calls out (drain T calls i n m) := by
  induction n generalizing m with
  | zero => exact h
  | succ n ih =>
    unfold drain
    split
    · rename_i m' hm; exact ih (.step _ h hm)
    · exact h

theorem play_moments {T : Threads.Env} {calls : ObjectInfo → List Output.Todo} {out : Output.World} {ps : List Play} {m m' : Moment}
    (h : Moments T calls out m) (hp : play T calls ps m = some m') : Moments T calls out m' := by
  induction ps generalizing m with
  | nil => cases hp; exact h
  | cons p ps ih =>
    cases p with
    | turn t =>
      obtain ⟨m1, h1, h2⟩ := Option.bind_eq_some_iff.mp hp
      exact ih (.step _ h h1) h2
    | calls i => exact ih (drain_moments i 9 h) hp

theorem played_moments {T : Threads.Env} {calls : ObjectInfo → List Output.Todo} {out : Output.World} {ps : List Play}
    (h : (play T calls ps ⟨init T, out, fun _ => []⟩).isSome = true) : Moments T calls out (played T calls out ps) := by
  obtain ⟨m, hm⟩ := Option.isSome_iff_exists.mp h
  unfold played
  rw [hm]
  exact play_moments .init hm

/-- Two inputs with different debug ids. -/
def exFiles : List Str := [str% "/d/a", str% "/d/b"]
def exDisk : Cache.World := exWorld [(str% "/d/a", .file [1] true), (str% "/d/b", .file [4, 1] true)]
def exOrders : Orders := ⟨id, fun _ => id⟩
def exTwo (output : Output.Out) : Config := { exConfig with numJobs := 2, output := output }
def exThreads (output : Output.Out) : Threads.Env :=
  threads exEnv none (exTwo output) exFiles (fun _ => exDisk) exOrders none (str% "x86_64") Output.emptyWorld

/-- The first worker reads both inputs and hands one module to the second worker. -/
def exRun : List Threads.Action := [.send, .send] ++ steps 0 13 ++ steps 1 1 ++ steps 0 5 ++ steps 1 2 ++ [.join, .join]

def exCalls (output : Output.Out) : ObjectInfo → List Output.Todo := Output.callsOf exEnv.io none output false
def exLast (output : Output.Out) : Moment := played (exThreads output) (exCalls output) Output.emptyWorld (whole exRun)

theorem exRun_ends (output : Output.Out)
    (h1 : (play (exThreads output) (exCalls output) (whole exRun) ⟨init (exThreads output), Output.emptyWorld, fun _ => []⟩).isSome = true)
    (h2 : (exLast output).s.Returned (exThreads output)) :
    SeveralFiles exEnv none (exTwo output) exFiles (fun _ => exDisk) exOrders Output.emptyWorld (.ok ()) (exLast output).out :=
  .returned none (str% "x86_64") _ rfl (played_moments h1) h2

/-- **C68 is false for an output file.** Two inputs with different debug ids and `-o out.sym`: the run returns `Ok`, both modules were
written, and the file holds only one of them. -/
theorem C68_overwritten_witness : ∃ out' a b ta tb,
    SeveralFiles exEnv none (exTwo (.file (.path (str% "out.sym")))) exFiles (fun _ => exDisk) exOrders Output.emptyWorld (.ok ()) out' ∧
    (parseInput exEnv (exTwo (.file (.path (str% "out.sym")))) none (str% "x86_64") (str% "/d/a") exDisk).1 = .ok a ∧
    (parseInput exEnv (exTwo (.file (.path (str% "out.sym")))) none (str% "x86_64") (str% "/d/b") exDisk).1 = .ok b ∧
    a.display none = .ok ta ∧ b.display none = .ok tb ∧ ta ≠ tb ∧
    out'.files (str% "out.sym") = some (Utf8.encode tb) :=
  ⟨_, _, _, _, _, exRun_ends _ (by decide +kernel) (by decide +kernel), rfl, rfl, rfl, rfl, by decide +kernel, by decide +kernel⟩

/-! ## A run with a store -/

def exStore : Output.Out := .store (str% "/s")

/-- What the two inputs are read as. -/
def exA : ObjectInfo := match (parseInput exEnv (exTwo exStore) none (str% "x86_64") (str% "/d/a") exDisk).1 with | .ok o => o | _ => plain []
def exB : ObjectInfo := match (parseInput exEnv (exTwo exStore) none (str% "x86_64") (str% "/d/b") exDisk).1 with | .ok o => o | _ => plain []

theorem exA_eq : (parseInput exEnv (exTwo exStore) none (str% "x86_64") (str% "/d/a") exDisk).1 = .ok exA := rfl
theorem exB_eq : (parseInput exEnv (exTwo exStore) none (str% "x86_64") (str% "/d/b") exDisk).1 = .ok exB := rfl
theorem exIds : exA.debugId = str% "E1" ∧ exB.debugId = str% "D1" := ⟨rfl, rfl⟩

theorem exThreads_parse {i : Nat} {o : ObjectInfo} (h : (exThreads exStore).parse i = .ok o) : i = 0 ∧ o = exA ∨ i = 1 ∧ o = exB := by
  match i with
  | 0 =>
    have : (exThreads exStore).parse 0 = .ok exA := exA_eq
    rw [this] at h; cases h; exact .inl ⟨rfl, rfl⟩
  | 1 =>
    have : (exThreads exStore).parse 1 = .ok exB := exB_eq
    rw [this] at h; cases h; exact .inr ⟨rfl, rfl⟩
  | i + 2 =>
    have : (exThreads exStore).parse (i + 2) = .panic := rfl
    rw [this] at h; cases h

theorem exMade {l : List Nat} {o : ObjectInfo} (h : MadeOnce (exThreads exStore) l o) : o = exA ∨ o = exB := by
  obtain ⟨hn, _, h⟩ := h
  cases h with
  | one f o ho => rcases exThreads_parse ho with ⟨_, h⟩ | ⟨_, h⟩ <;> simp [h]
  | more f l o p c ho hm hc =>
    exfalso
    have hid := (merge_ok hc).1
    have hall : ∀ l p, Made (exThreads exStore) l p → (0 ∈ l ∧ p.debugId = str% "E1") ∨ (1 ∈ l ∧ p.debugId = str% "D1") := by
      intro l p h
      induction h with
      | one f o ho => rcases exThreads_parse ho with ⟨rfl, rfl⟩ | ⟨rfl, rfl⟩ <;> simp [exIds]
      | more f l o p c ho _ hc ih =>
        rw [(merge_ok hc).2]
        rcases exThreads_parse ho with ⟨rfl, rfl⟩ | ⟨rfl, rfl⟩ <;> simp [exIds]
    rcases exThreads_parse ho with ⟨rfl, rfl⟩ | ⟨rfl, rfl⟩ <;> rcases hall _ _ hm with ⟨h1, h2⟩ | ⟨h1, h2⟩ <;>
      rw [h2] at hid <;> first | exact absurd hid (by decide) | exact (List.nodup_cons.mp hn).1 h1

theorem exWorks : Works exEnv none (exTwo exStore) (exThreads exStore) where
  mkdirs := fun _ => rfl
  create := fun _ => rfl
  chunks := fun _ => by simp [exEnv, Output.goodDisk, Output.fullDisk]
  prints := by
    intro l o h
    rcases exMade h with rfl | rfl
    · exact ⟨_, rfl, fun _ => (by decide +kernel : (match exA.display none with | .ok t => (Utf8.encode t).length | _ => 0) ≤ 1000000)⟩
    · exact ⟨_, rfl, fun _ => (by decide +kernel : (match exB.display none with | .ok t => (Utf8.encode t).length | _ => 0) ≤ 1000000)⟩
  cfi := fun h => by cases h

/-- C68 and C69 applied: the hypotheses are met, and the store holds the symbol file of the first input. -/
example : ∃ out' o t p, SeveralFiles exEnv none (exTwo exStore) exFiles (fun _ => exDisk) exOrders Output.emptyWorld (.ok ()) out' ∧
    (readSingle exEnv (exTwo exStore) (str% "/d/a") exDisk).1 = .ok o ∧ o.display none = .ok t ∧
    InStore (str% "/s") o.fileName o.debugId p ∧ out'.files p = some (Utf8.encode t) := by
  obtain ⟨o, t, p, h1, h2, hp, _, _, h3⟩ := C69_same_as_alone exEnv none (exTwo exStore) exFiles (fun _ => exDisk) exOrders Output.emptyWorld _ none
    (str% "x86_64") (by decide) rfl (fun t => .refl _) rfl rfl rfl (by
      intro i f hi
      have hf := List.mem_of_getElem? hi
      simp only [exFiles, List.mem_cons, List.not_mem_nil, or_false] at hf
      rcases hf with rfl | rfl
      · exact ⟨exA, exA_eq, by rw [exIds.1]; exact ⟨by decide, by decide, by decide⟩⟩
      · exact ⟨exB, exB_eq, by rw [exIds.2]; exact ⟨by decide, by decide, by decide⟩⟩)
    exWorks (str% "/s") (by decide) rfl (exRun_ends exStore (by decide +kernel) (by decide +kernel)) 0 (str% "/d/a") rfl (by
      intro j g oj oi hj h1 h2 hid
      match j with
      | 0 => rfl
      | 1 =>
        cases hj
        rw [exB_eq] at h1; cases h1
        rw [exA_eq] at h2; cases h2
        exact absurd hid (by decide)
      | j + 2 => cases hj) exDisk rfl
  exact ⟨_, o, t, p, exRun_ends exStore (by decide +kernel) (by decide +kernel), h1, h2, hp, h3⟩

/-! ## Status 0 without anything written -/

/-- No directory can be made. -/
def noDirs : Dumper.Env := { exEnv with io := { Output.goodDisk with mkdirs := fun _ => false } }

def exOptions (files : List Str) : Options where
  filenames := files
  output := none
  store := some (str% "/s")
  debugId := none
  codeId := none
  symbolServer := none
  checkCfi := false
  arch := str% "x86_64"
  listArch := false
  numJobs := str% "1"
  mappingVar := none
  mappingSrc := none
  mappingDest := none
  mappingFile := none
  inlines := false
  extraInfo := none
  noGenerator := true

def sameDisk : Cache.World := exWorld [(str% "/d/a", .file [1] true), (str% "/d/b", .file [1] true)]

def failConfig : Config := { exConfig with output := .store (str% "/s") }
def failThreads : Threads.Env := threads noDirs (some []) failConfig exFiles (fun _ => sameDisk) exOrders none (str% "x86_64") Output.emptyWorld
def failRun : List Threads.Action := [.send, .send] ++ steps 0 11 ++ [.join]
def failLast : Moment := played failThreads (Output.callsOf noDirs.io (some []) failConfig.output failConfig.checkCfi) Output.emptyWorld (whole failRun)

/-- **C71 is false for several files.** The directory of the store cannot be made: the same options give status 1 for one file, and status 0
for two files that make up the same module.  Nothing is written in either case. -/
theorem C71_several_witness :
    (∃ out', Exits noDirs (str% "2.3.4") 8 (exOptions exFiles) sameDisk exOrders Output.emptyWorld 0 out' ∧
      out'.files (str% "/s/lib.so/E1/lib.so.sym") = none ∧ out'.stdout = [] ∧ out'.stderr = []) ∧
    (∃ out', Exits noDirs (str% "2.3.4") 8 (exOptions [str% "/d/a"]) sameDisk exOrders Output.emptyWorld 1 out') := by
  refine ⟨⟨failLast.out, ?_, ?_⟩, ?_⟩
  · exact .acts [] (.ok ()) _ rfl (.several failConfig (fun _ => sameDisk) (.ok ()) _ (by decide) (fun _ => .start) (.returned none (str% "x86_64") failLast rfl
      (played_moments (by decide +kernel)) (by decide +kernel)))
  · decide +kernel
  · exact ⟨_, .acts [] (.err _) _ rfl (.single failConfig (str% "/d/a") rfl)⟩

/-! ## Listing -/

/-- A file with one object, then one in which an object cannot be read: the first is listed, the second panics, the third gets no
line. -/
example :
    (listArchs exEnv (exWorld [(str% "/d/b", .file [4, 1] true), (str% "/d/c", .file [4] true)]).disk
      [str% "/d/b", str% "/d/c", str% "/d/b"] Output.emptyWorld).1 = .panic ∧
    (listArchs exEnv (exWorld [(str% "/d/b", .file [4, 1] true), (str% "/d/c", .file [4] true)]).disk
      [str% "/d/b", str% "/d/c", str% "/d/b"] Output.emptyWorld).2.stdout =
        Utf8.encode (str% "b contains the following architecture:\narm64\n") := by decide +kernel

/-- A file that can be listed. -/
example : Lists exEnv (exWorld [(str% "/d/b", .file [4, 1] true)]).disk (str% "/d/b")
    (str% "b contains the following architecture:\narm64\n") :=
  ⟨str% "b", [4, 1], [exObj .machO (str% "D1") (str% "arm64") none], by decide +kernel,
    ⟨str% "/d/b", str% "/d/", str% "b", [4, 1], .file _ (by decide +kernel), rfl, .inr rfl, by unfold ProperComp; decide,
      .plain (by decide +kernel)⟩, rfl, by decide +kernel⟩

def listDisk : Disk := (exWorld [(str% "/d/b", .file [4, 1] true), (str% "/d/c", .file [4] true)]).disk

/-- A disk with some files. -/
theorem named_files {fs : List (Str × Node)} (h : ∀ x ∈ fs, (∃ raw r, x.2 = .file raw r) ∧ ∃ pre name, x.1 = pre ++ name ∧ DirPart pre ∧ ProperComp name) :
    Named (exWorld fs).disk where
  files := fun _ _ _ hp => (h _ (mem_of_lookup hp)).2
  dirs := by
    intro q es hq
    obtain ⟨⟨raw, r, e⟩, _⟩ := h _ (mem_of_lookup hq)
    cases e

theorem listDisk_named : Named listDisk := named_files (by
  intro x hx
  simp only [List.mem_cons, List.not_mem_nil, or_false] at hx
  rcases hx with rfl | rfl
  · exact ⟨⟨_, _, rfl⟩, str% "/d/", str% "b", rfl, .inr rfl, by unfold ProperComp; decide⟩
  · exact ⟨⟨_, _, rfl⟩, str% "/d/", str% "c", rfl, .inr rfl, by unfold ProperComp; decide⟩)

/-- C70 applied to the listing above, which stops at its second file. -/
example : ∃ done rest texts, [str% "/d/b", str% "/d/c", str% "/d/b"] = done ++ rest ∧ ListsAll exEnv listDisk done texts ∧ rest ≠ [] := by
  obtain ⟨done, rest, texts, h1, h2, _, h4, _⟩ := C70_list_arch exEnv listDisk listDisk_named [str% "/d/b", str% "/d/c", str% "/d/b"] Output.emptyWorld
  refine ⟨done, rest, texts, h1, h2, fun h => ?_⟩
  exact absurd (h4.mpr h) (by decide +kernel)

/-- A value that is not accepted, and an architecture that is not known. -/
example : (∃ out', Exits exEnv (str% "2.3.4") 8 { exOptions exFiles with extraInfo := some [str% "a b"] } exDisk exOrders Output.emptyWorld 101 out') ∧
    (∃ out', Exits exEnv (str% "2.3.4") 8 { exOptions exFiles with arch := str% "vax" } exDisk exOrders Output.emptyWorld 1 out') :=
  ⟨⟨_, .badInfo fun e h => by cases h⟩,
   ⟨_, .acts [] (.err _) _ rfl (.several { failConfig with arch := str% "vax" } (fun _ => exDisk) (.err _) _ (by decide) (fun _ => .start) (.badOptions _ rfl))⟩⟩

/-- The options of a dump: the number of jobs is not one, the output is standard output and the store. -/
example : ∃ c, actionOf 8 { exOptions exFiles with numJobs := str% "x", output := some ['-'], debugId := some (str% "D") } = .dump c ∧
    c.numJobs = 8 ∧ c.debugId = some (str% "D") ∧ c.codeId = none ∧
    ∀ m fo, Output.Requested c.output m fo ↔ fo = .stdout ∨ ∃ p, InStore (str% "/s") m.fileName m.debugId p ∧ fo = .path p := by
  obtain ⟨c, h, hc⟩ := (C64_config 8 { exOptions exFiles with numJobs := str% "x", output := some ['-'], debugId := some (str% "D") }).2 rfl
  refine ⟨c, h, (hc.jobs 8).mpr (.inr ⟨?_, rfl⟩), hc.search.2.1, hc.search.2.2, ?_⟩
  · intro k hk
    have := Mapping.parseUsize_iff.mpr hk
    exact absurd this (by simp only [show Mapping.parseUsize (str% "x") = none from by decide]; simp)
  · intro m fo
    rw [hc.destinations]
    simp [exOptions]

/-- C71 applied: a dump of one file that ends with status 0. -/
example : ∃ out' c m, Exits exEnv (str% "2.3.4") 8 (exOptions [str% "/d/a"]) sameDisk exOrders Output.emptyWorld 0 out' ∧
    Configures 8 (exOptions [str% "/d/a"]) c ∧ (readSingle exEnv c (str% "/d/a") sameDisk).1 = .ok m := by
  have he : Exits exEnv (str% "2.3.4") 8 (exOptions [str% "/d/a"]) sameDisk exOrders Output.emptyWorld 0
      (singleFile exEnv (some []) failConfig (str% "/d/a") sameDisk Output.emptyWorld).2.2 := by
    have hr : (singleFile exEnv (some []) failConfig (str% "/d/a") sameDisk Output.emptyWorld).1 = .ok () := by decide +kernel
    have := Exits.acts (env := exEnv) (version := str% "2.3.4") (cpus := 8) (o := exOptions [str% "/d/a"]) (orders := exOrders) []
      (singleFile exEnv (some []) failConfig (str% "/d/a") sameDisk Output.emptyWorld).1 _ rfl (.single failConfig (str% "/d/a") rfl)
    rw [hr] at this
    exact this
  obtain ⟨_, _, h⟩ := C71_status_partial exEnv (str% "2.3.4") 8 (exOptions [str% "/d/a"]) sameDisk exOrders Output.emptyWorld _ (named_files (by
    intro x hx
    simp only [List.mem_cons, List.not_mem_nil, or_false] at hx
    rcases hx with rfl | rfl
    · exact ⟨⟨_, _, rfl⟩, str% "/d/", str% "a", rfl, .inr rfl, by unfold ProperComp; decide⟩
    · exact ⟨⟨_, _, rfl⟩, str% "/d/", str% "b", rfl, .inr rfl, by unfold ProperComp; decide⟩)) he
  obtain ⟨c, m, h1, h2, _⟩ := h rfl (str% "/d/a") rfl
  exact ⟨_, c, m, he, h1, h2⟩

/-! ## Downloads while other inputs are read -/

/-- A symbol server with a cache is configured, and it has the PDB. -/
def dlEnv : Dumper.Env :=
  { exEnv with net := { WinUtils.noNet with
      validUrl := fun _ => true, arrivals := fun js => js.take 1, get := fun _ => some (200, [2]), mkdirs := fun _ => true, create := fun _ => true,
      room := fun _ => 1000 } }
def dlWorld : Cache.World :=
  exWorld [(str% "/home/u/.dump_syms/config", .file (Utf8.encode (str% "srv*/c*http://s")) true), (str% "/d/a.dll", .file [3] true),
    (str% "/e/a.dll", .file [3] true)]
/-- The state after the first PE has been read. -/
def dlAfter : Cache.World := (parseInput dlEnv exConfig none (str% "x86") (str% "/d/a.dll") dlWorld).2

theorem dlSane : Sane dlEnv dlWorld.disk := by
  refine ⟨?_, ?_, ?_, .inr ⟨str% "/", str% "w", rfl, .inr rfl, by unfold ProperComp; decide⟩⟩
  · intro q es hq
    have := mem_of_lookup hq
    simp only [List.mem_cons, List.not_mem_nil, Prod.mk.injEq, reduceCtorEq, and_false, or_self] at this
  · intro u st raw p h; cases h; exact (by decide : 1 ≤ 1000)
  · intro js j h; exact List.mem_of_mem_take h

/-- `Meanwhile` is not only about the start: the first worker has put the PDB into the cache, so that the second finds it there and sends no
request; and both read the same. -/
example : Meanwhile dlEnv dlWorld dlAfter ∧ dlWorld.disk (str% "/c/m.pdb/A1/m.pdb") = none ∧
    dlAfter.disk (str% "/c/m.pdb/A1/m.pdb") = some (.file [2] true) ∧ dlAfter.log.length = 3 ∧
    headOf (parseInput dlEnv exConfig none (str% "x86") (str% "/e/a.dll") dlAfter).1 = .ok (str% "m.pdb", str% "A1", str% "x86", .win) ∧
    (parseInput dlEnv exConfig none (str% "x86") (str% "/e/a.dll") dlAfter).2.log.length = 3 ∧
    headOf (parseInput dlEnv exConfig none (str% "x86") (str% "/e/a.dll") dlWorld).1 = .ok (str% "m.pdb", str% "A1", str% "x86", .win) :=
  ⟨parse_meanwhile dlSane _ _ _ _, by decide +kernel, by decide +kernel, by decide +kernel, by decide +kernel, by decide +kernel, by decide +kernel⟩

/-- C69 without a symbol server applied. -/
example : ∃ out' o t p, Acts exEnv none exFiles exDisk exOrders Output.emptyWorld (.dump (exTwo exStore)) (.ok ()) out' ∧
    (readSingle exEnv (exTwo exStore) (str% "/d/b") exDisk).1 = .ok o ∧ o.display none = .ok t ∧
    InStore (str% "/s") o.fileName o.debugId p ∧ out'.files p = some (Utf8.encode t) := by
  have hacts : Acts exEnv none exFiles exDisk exOrders Output.emptyWorld (.dump (exTwo exStore)) (.ok ()) (exLast exStore).out :=
    .several (exTwo exStore) (fun _ => exDisk) (.ok ()) _ (by decide) (fun _ => .start) (exRun_ends exStore (by decide +kernel) (by decide +kernel))
  obtain ⟨o, t, p, h1, h2, hp, _, _, h3⟩ := C69_no_server exEnv none (exTwo exStore) exFiles exDisk exOrders Output.emptyWorld none
    (str% "x86_64") (by decide) rfl (fun t => .refl _) rfl rfl rfl (by
      intro servers h
      have : Cache.getSymServers exEnv.home exDisk.disk none = .ok none := by decide +kernel
      rw [this] at h; cases h) (by
      intro f hf
      simp only [exFiles, List.mem_cons, List.not_mem_nil, or_false] at hf
      rcases hf with rfl | rfl
      · exact ⟨exA, exA_eq, by rw [exIds.1]; exact ⟨by decide, by decide, by decide⟩⟩
      · exact ⟨exB, exB_eq, by rw [exIds.2]; exact ⟨by decide, by decide, by decide⟩⟩)
    exWorks (str% "/s") (by decide) rfl (.ok ()) _ hacts rfl 1 (str% "/d/b") rfl (by
      intro j g oj oi hj h1 h2 hid
      match j with
      | 1 => rfl
      | 0 =>
        cases hj
        rw [exA_eq] at h1; cases h1
        rw [exB_eq] at h2; cases h2
        exact absurd hid (by decide)
      | j + 2 => cases hj)
  exact ⟨_, o, t, p, hacts, h1, h2, hp, h3⟩

end Run
end DumpSyms
