import Verif.Proof.Hosts
import Verif.Props.SeveralSamples
/-!
# C100: the machine on which the program runs
-/
namespace DumpSyms
open ObjectInfo Collector Reader

namespace Dumper

/-- The source files of an object are recorded under the same paths on two machines. -/
def Alike (platform : Platform) (o : ObjInput) (os os' : TargetOs) (real real' : Str → Option Str) : Prop :=
  ∀ fs, o.functions = .ok fs → ∀ f, some f ∈ fs → ∀ c i, f.Refers c i → ∀ p,
    RecordedPath platform (OnHost os platform ∧ ¬ (o.format = .pe ∧ o.hasDebugInfo = true)) real c i p ↔
      RecordedPath platform (OnHost os' platform ∧ ¬ (o.format = .pe ∧ o.hasDebugInfo = true)) real' c i p

theorem Alike.symm {platform : Platform} {o : ObjInput} {os os' : TargetOs} {real real' : Str → Option Str} (h : Alike platform o os os' real real') :
    Alike platform o os' os real' real := fun fs hf f hm c i hr p => (h fs hf f hm c i hr p).symm

/-- On two machines of other platforms than that of the object. -/
theorem alike_foreign {platform : Platform} (o : ObjInput) {os os' : TargetOs} (real real' : Str → Option Str) (h : ¬ OnHost os platform)
    (h' : ¬ OnHost os' platform) : Alike platform o os os' real real' := by
  intro fs _ f _ c i _ p
  have h1 : ∀ q : Prop, ¬ (OnHost os platform ∧ q) := fun q x => h x.1
  have h2 : ∀ q : Prop, ¬ (OnHost os' platform ∧ q) := fun q x => h' x.1
  unfold RecordedPath
  simp [h1, h2]

/-- On two machines of one platform on which the same files are there. -/
theorem alike_same {platform : Platform} (o : ObjInput) (os : TargetOs) {real real' : Str → Option Str}
    (h : ∀ fs, o.functions = .ok fs → ∀ f, some f ∈ fs → ∀ c i, f.Refers c i → ∀ path, SourcePath platform c.bytes i.dir i.name path → real path = real' path) :
    Alike platform o os os real real' := by
  intro fs hf f hm c i hr p
  unfold RecordedPath
  constructor
  · rintro ⟨path, h1, h2, h3⟩
    exact ⟨path, h1, by rw [← h fs hf f hm c i hr path h1]; exact h2, h3⟩
  · rintro ⟨path, h1, h2, h3⟩
    exact ⟨path, h1, by rw [h fs hf f hm c i hr path h1]; exact h2, h3⟩

/-- On any two machines, when the source paths are real ones, or have no `.` and `..`, on both. -/
theorem alike_resolved {platform : Platform} (o : ObjInput) (os os' : TargetOs) {real real' : Str → Option Str}
    (h : ∀ fs, o.functions = .ok fs → ∀ f, some f ∈ fs → ∀ c i, f.Refers c i → ∀ path, SourcePath platform c.bytes i.dir i.name path →
      (∀ r, real path = some r ∨ real' path = some r → r = path) ∧ Resolved platform path path) :
    Alike platform o os os' real real' := by
  have key : ∀ (os : TargetOs) (real : Str → Option Str) (c : ByteSlice) (i : FileInfo) (p : Str), (∀ path, SourcePath platform c.bytes i.dir i.name path →
      (∀ r, real path = some r → r = path) ∧ Resolved platform path path) →
      (RecordedPath platform (OnHost os platform ∧ ¬ (o.format = .pe ∧ o.hasDebugInfo = true)) real c i p ↔ SourcePath platform c.bytes i.dir i.name p) := by
    intro os real c i p hp
    unfold RecordedPath
    constructor
    · rintro ⟨path, h1, h2, h3⟩
      have : p = path := by
        by_cases hh : OnHost os platform ∧ ¬ (o.format = .pe ∧ o.hasDebugInfo = true)
        · cases hr : real path with
          | none => exact ((h2 hh).2 hr).unique (hp path h1).2
          | some r => rw [(h2 hh).1 r hr, (hp path h1).1 r hr]
        · exact h3 hh
      exact this ▸ h1
    · intro h1
      exact ⟨p, h1, fun _ => ⟨fun r hr => ((hp p h1).1 r hr).symm, fun _ => (hp p h1).2⟩, fun _ => rfl⟩
  intro fs hf f hm c i hr p
  have hh := h fs hf f hm c i hr
  rw [key os real c i p fun path hp => ⟨fun r hr => (hh path hp).1 r (.inl hr), (hh path hp).2⟩,
    key os' real' c i p fun path hp => ⟨fun r hr => (hh path hp).1 r (.inr hr), (hh path hp).2⟩]

/-- The same libraries, files, network and options on another machine. -/
def Env.on (env : Env) (os : TargetOs) (real : Str → Option Str) : Env := { env with os := os, canon := real }

/-- **C100, one object.** The module made from it is the same on both machines. -/
theorem C100_object (env : Env) {os : TargetOs} {real : Str → Option Str} {platform : Platform} {o : ObjInput} (h : Alike platform o env.os os env.canon real)
    (name : Str) (pe : Option ObjInput) (peName : Option Str) (mapping : Option (List Mapping.Generator)) (inlines : Bool) :
    fromObject (env.on os real) o name pe peName platform mapping inlines = fromObject env o name pe peName platform mapping inlines := by
  unfold fromObject
  refine fromObject_host (e := cenv env platform mapping o) (f := cenv (env.on os real) platform mapping o) ⟨rfl, rfl, rfl, rfl, rfl⟩ inlines platform o name pe peName fun fs hf f hm c i hr => ?_
  have h1 := C72_source_path_partial env platform mapping o c i
  have h2 := C72_source_path_partial (env.on os real) platform mapping o c i
  exact h2.unique ((h fs hf f hm c i hr _).mp h1)

/-- What is dumped from the contents of a file is recorded alike. -/
def AlikeBytes (env : Env) (os : TargetOs) (real : Str → Option Str) (b : Bytes) : Prop :=
  match env.parsers.peek b with
  | .elf => ∀ o, env.parsers.elf b = .ok o → Alike .linux o env.os os env.canon real
  | .machO => ∀ l o, env.parsers.archive b = .ok l → some o ∈ l → Alike .mac o env.os os env.canon real
  | .pdb => ∀ o, env.parsers.pdb b = .ok o → Alike .win o env.os os env.canon real
  | .pe => (∀ x, env.parsers.pe b = some x → Alike .win x.1 env.os os env.canon real) ∧
      ∀ b' o, env.parsers.pdb b' = .ok o → Alike .win o env.os os env.canon real
  | .other => True

/-- Files for Windows, on two machines of other kinds. -/
theorem alikeBytes_windows {env : Env} {os : TargetOs} (real : Str → Option Str) {b : Bytes} (hb : env.parsers.peek b = .pe ∨ env.parsers.peek b = .pdb)
    (h : env.os ≠ .windows) (h' : os ≠ .windows) : AlikeBytes env os real b := by
  have hf : ∀ o, Alike .win o env.os os env.canon real := fun o =>
    alike_foreign o env.canon real (by revert h; cases env.os <;> simp [OnHost]) (by revert h'; cases os <;> simp [OnHost])
  unfold AlikeBytes
  rcases hb with hb | hb <;> rw [hb]
  · exact ⟨fun x _ => hf _, fun _ o _ => hf o⟩
  · exact fun o _ => hf o

theorem getObjectInfo_on (env : Env) {os : TargetOs} {real : Str → Option Str} {buf : Bytes} (h : AlikeBytes env os real buf) (path filename : Str)
    (mapping : Option (List Mapping.Generator)) (arch : Str) (symbolServer : Option Str) (inlines : Bool) (w : Cache.World) :
    getObjectInfo (env.on os real) buf path filename mapping arch symbolServer inlines w =
      getObjectInfo env buf path filename mapping arch symbolServer inlines w := by
  have hpeek : (env.on os real).parsers = env.parsers := rfl
  have hnet : (env.on os real).net = env.net := rfl
  have hhome : (env.on os real).home = env.home := rfl
  have hcwd : (env.on os real).cwd = env.cwd := rfl
  unfold AlikeBytes at h
  unfold getObjectInfo
  rw [hpeek]
  cases hk : env.parsers.peek buf with
  | other => rfl
  | elf =>
    rw [hk] at h
    simp only [fromElf, hpeek]
    cases he : env.parsers.elf buf with
    | error m => rfl
    | ok o => simp only [C100_object env (h o he)]
  | machO =>
    rw [hk] at h
    simp only [fromMacho, hpeek]
    cases he : env.parsers.archive buf with
    | error m => rfl
    | ok l =>
      simp only
      cases hs : selectObject arch l with
      | err m => rfl
      | panic => rfl
      | ok x =>
        cases x with
        | none => rfl
        | some o =>
          simp only [Res.bind_ok]
          rw [C100_object env (h l o he (by
            unfold selectObject at hs
            split at hs
            · cases hs
            · cases hs; simp
            · simp only [Res.ok.injEq] at hs
              have := List.mem_of_find?_eq_some hs
              simpa using this))]
  | pdb =>
    rw [hk] at h
    simp only [getPdbObjectInfo, hpeek, hnet]
    cases he : env.parsers.pdb buf with
    | error m => rfl
    | ok o =>
      have hall := fun a b c d e => C100_object env (h o he) a b c d e
      simp only [fromPdb, hall]
  | pe =>
    rw [hk] at h
    have h1 : getPePdbObjectInfo (env.on os real) buf path filename mapping symbolServer inlines w =
        getPePdbObjectInfo env buf path filename mapping symbolServer inlines w := by
      unfold getPePdbObjectInfo
      simp only [hpeek, hnet, hhome, hcwd]
      cases Cache.getSymServers env.home w.disk symbolServer with
      | err m => rfl
      | panic => rfl
      | ok servers =>
        simp only
        cases (WinUtils.getPePdbBuf env.net (parsePe env.parsers) env.cwd path buf servers w).1 with
        | err m => rfl
        | panic => rfl
        | ok x =>
          cases x with
          | none => rfl
          | some x =>
            obtain ⟨pe, b, n⟩ := x
            simp only
            cases he : env.parsers.pdb b with
            | error m => rfl
            | ok o => simp only [fromPdb, C100_object env (h.2 b o he)]
    have h2 : getPeObjectInfo (env.on os real) buf filename = getPeObjectInfo env buf filename := by
      unfold getPeObjectInfo
      rw [hpeek]
      cases he : env.parsers.pe buf with
      | none => rfl
      | some x => simp only [fromPe, C100_object env (h.1 x he)]
    simp only [h1, h2]

theorem parseInput_on (env : Env) {os : TargetOs} {real : Str → Option Str} (c : Config) (mapping : Option (List Mapping.Generator)) (arch path : Str)
    (w : Cache.World) (h : ∀ b, Files.readFile env.net.cab w.disk path = .ok b → AlikeBytes env os real b) :
    parseInput (env.on os real) c mapping arch path w = parseInput env c mapping arch path w := by
  unfold parseInput
  cases Utils.getFilename path with
  | err m => rfl
  | panic => rfl
  | ok filename =>
    show (match Files.readFile env.net.cab w.disk path with | .ok buf => _ | .err m => _ | .panic => _) = _
    cases hr : Files.readFile env.net.cab w.disk path with
    | err m => rfl
    | panic => rfl
    | ok b => simp only [getObjectInfo_on env (h b hr)]

theorem readSingle_on (env : Env) {os : TargetOs} {real : Str → Option Str} (c : Config) (hd : c.debugId = none) (hc : c.codeId = none) (path : Str)
    (w : Cache.World) (h : ∀ b, Files.readFile env.net.cab w.disk path = .ok b → AlikeBytes env os real b) :
    readSingle (env.on os real) c path w = readSingle env c path w := by
  have hp : prepare (env.on os real) c = prepare env c := rfl
  have hnet : (env.on os real).net = env.net := rfl
  unfold readSingle
  cases Utils.getFilename path with
  | err m => rfl
  | panic => rfl
  | ok filename =>
    simp only [getFromId, hd, hc, Option.or_none, hp, hnet]
    cases hr : Files.readFile env.net.cab w.disk path with
    | err m => rfl
    | panic => rfl
    | ok b =>
      simp only
      cases prepare env c with
      | err m => rfl
      | panic => rfl
      | ok x => simp only [getObjectInfo_on env (h b hr)]

end Dumper

namespace Run
open Dumper

theorem meanwhile_on {env : Env} {os : TargetOs} {real : Str → Option Str} {w w' : Cache.World} (h : Meanwhile (env.on os real) w w') : Meanwhile env w w' := by
  induction h with
  | start => exact .start
  | asked w' log _ ih => exact .asked w' log ih
  | cached w' servers s dir name buf pe data _ hs hm hc hn hpe hf ih => exact .cached w' servers s dir name buf pe data ih hs hm hc hn hpe hf

theorem listArchs_on (env : Env) (os : TargetOs) (real : Str → Option Str) (d : Disk) (files : List Str) :
    ∀ out, listArchs (env.on os real) d files out = listArchs env d files out := by
  induction files with
  | nil => intro out; rfl
  | cons f fs ih =>
    intro out
    have h1 : listArch (env.on os real) f d out = listArch env f d out := rfl
    rw [listArchs, listArchs, h1]
    simp only [ih]

theorem exits_on (env : Env) (version : Str) (cpus : Nat) (o : Options) (w : Cache.World) (orders : Orders) (out : Output.World) (os : TargetOs)
    (real : Str → Option Str) (hdebug : o.debugId = none) (hcode : o.codeId = none)
    (h : ∀ w', Meanwhile env w w' → ∀ f ∈ o.filenames, ∀ b, Files.readFile env.net.cab w'.disk f = .ok b → AlikeBytes env os real b)
    {code : Nat} {out' : Output.World} (hex : Exits (env.on os real) version cpus o w orders out code out') :
    Exits env version cpus o w orders out code out' := by
  cases hex with
  | badInfo h => exact .badInfo h
  | acts extra r out' hi ha =>
    refine .acts extra r out' hi ?_
    have hconf : ∀ c, actionOf cpus o = .dump c → c.debugId = none ∧ c.codeId = none := by
      intro c hc
      unfold actionOf at hc
      split at hc
      · cases hc
      · cases hc; exact ⟨hdebug, hcode⟩
    generalize hact : actionOf cpus o = act at ha hconf
    cases ha with
    | list => rw [listArchs_on]; exact .list
    | single c f hf =>
      obtain ⟨h1, h2⟩ := hconf c rfl
      have : singleFile (env.on os real) (some extra) c f w out = singleFile env (some extra) c f w out := by
        unfold singleFile
        rw [readSingle_on env c h1 h2 f w (h w .start f (by rw [hf]; simp))]
        rfl
      rw [this]
      exact .single c f hf
    | several c ws r out' hlen hw hs =>
      have hw' : ∀ i, Meanwhile env w (ws i) := fun i => meanwhile_on (hw i)
      refine .several c ws r out' hlen hw' ?_
      have hth : ∀ mapping arch, threads (env.on os real) (some extra) c o.filenames ws orders mapping arch out =
          threads env (some extra) c o.filenames ws orders mapping arch out := by
        intro mapping arch
        unfold threads
        congr 1
        funext i
        cases hi : o.filenames[i]? with
        | none => rfl
        | some f => simp only [parseInput_on env c mapping arch f (ws i) (h (ws i) (hw' i) f (List.mem_of_getElem? hi))]
      cases hs with
      | badOptions m h => exact .badOptions m h
      | badMapping h => exact .badMapping h
      | returned mapping arch m h hr hs =>
        rw [hth] at hr hs
        exact .returned mapping arch m h hr hs
      | crashed mapping arch m h hr hs =>
        rw [hth] at hr
        exact .crashed mapping arch m h hr hs

end Run

theorem Dumper.AlikeBytes.symm {env : Dumper.Env} {os : TargetOs} {real : Str → Option Str} {b : Bytes} (h : Dumper.AlikeBytes env os real b) :
    Dumper.AlikeBytes (env.on os real) env.os env.canon b := by
  unfold Dumper.AlikeBytes at *
  show (match env.parsers.peek b with | .elf => _ | .machO => _ | .pdb => _ | .pe => _ | .other => _)
  cases hk : env.parsers.peek b with
  | other => trivial
  | elf => rw [hk] at h; exact fun o ho => (h o ho).symm
  | machO => rw [hk] at h; exact fun l o hl ho => (h l o hl ho).symm
  | pdb => rw [hk] at h; exact fun o ho => (h o ho).symm
  | pe => rw [hk] at h; exact ⟨fun x hx => (h.1 x hx).symm, fun b' o ho => (h.2 b' o ho).symm⟩

namespace Run
open Dumper

/-- **C100, where source paths are recorded alike.** The program does the same on another machine: it can end in the same ways and leaves the same. -/
theorem C100_machines_partial (env : Env) (version : Str) (cpus : Nat) (o : Options) (w : Cache.World) (orders : Orders) (out : Output.World) (os : TargetOs)
    (real : Str → Option Str) (hdebug : o.debugId = none) (hcode : o.codeId = none)
    (h : ∀ w', Meanwhile env w w' → ∀ f ∈ o.filenames, ∀ b, Files.readFile env.net.cab w'.disk f = .ok b → AlikeBytes env os real b)
    (code : Nat) (out' : Output.World) :
    Exits (env.on os real) version cpus o w orders out code out' ↔ Exits env version cpus o w orders out code out' := by
  refine ⟨exits_on env version cpus o w orders out os real hdebug hcode h, fun hex => ?_⟩
  exact exits_on (env.on os real) version cpus o w orders out env.os env.canon hdebug hcode
    (fun w' hw f hf b hb => (h w' (meanwhile_on hw) f hf b hb).symm) hex

/-- **C100 for Windows.** PE and PDB files are dumped the same on all machines that are not Windows machines, whatever source files are there. -/
theorem C100_windows (env : Env) (version : Str) (cpus : Nat) (o : Options) (w : Cache.World) (orders : Orders) (out : Output.World) (os : TargetOs)
    (real : Str → Option Str) (hdebug : o.debugId = none) (hcode : o.codeId = none) (hos : env.os ≠ .windows) (hos' : os ≠ .windows)
    (h : ∀ w', Meanwhile env w w' → ∀ f ∈ o.filenames, ∀ b, Files.readFile env.net.cab w'.disk f = .ok b →
      env.parsers.peek b = .pe ∨ env.parsers.peek b = .pdb) (code : Nat) (out' : Output.World) :
    Exits (env.on os real) version cpus o w orders out code out' ↔ Exits env version cpus o w orders out code out' :=
  C100_machines_partial env version cpus o w orders out os real hdebug hcode
    (fun w' hw f hf b hb => alikeBytes_windows real (h w' hw f hf b hb) hos hos') code out'

/-! ### Where it fails -/

/-- An ELF file with a function of `../src/x.c`, compiled in `/build/a`. -/
def hostElf : ObjInput := { exObj .elf (str% "E1") (str% "x86_64") none with
  functions := .ok [some (.mk 0x2000 0x10 (nm (str% "b")) (compDir "/build/a") [⟨0x2000, some 16, refTo "../src" "x.c", 20⟩] [])] }
def hostEnv : Env := { exEnv with parsers := { exParsers with peek := fun _ => .elf, elf := fun _ => .ok hostElf } }
def hostWorld : Cache.World := exWorld [(str% "/d/a", .file [1] true)]
def hostOptions : Options := exOptions [str% "/d/a"]
def hostConfig : Config := match actionOf 4 hostOptions with | .dump c => c | _ => exConfig
/-- What is left on a machine of a kind. -/
def hostOut (os : TargetOs) : Output.World :=
  (singleFile (hostEnv.on os fun _ => none) (some []) hostConfig (str% "/d/a") hostWorld Output.emptyWorld).2.2

theorem hostExits (os : TargetOs)
    (h : (singleFile (hostEnv.on os fun _ => none) (some []) hostConfig (str% "/d/a") hostWorld Output.emptyWorld).1 = .ok ()) :
    Exits (hostEnv.on os fun _ => none) (str% "1.0") 4 hostOptions hostWorld exOrders Output.emptyWorld 0 (hostOut os) := by
  have h1 : Exits (hostEnv.on os fun _ => none) (str% "1.0") 4 hostOptions hostWorld exOrders Output.emptyWorld _ _ :=
    .acts [] _ _ rfl (.single hostConfig (str% "/d/a") rfl)
  rw [h] at h1
  exact h1

/-- **C100 is false for the files of the platform it runs on.** On Linux the paths of an ELF file are resolved, elsewhere they are not. -/
theorem C100_machines_witness :
    Exits (hostEnv.on .linux fun _ => none) (str% "1.0") 4 hostOptions hostWorld exOrders Output.emptyWorld 0 (hostOut .linux) ∧
    Exits (hostEnv.on .macos fun _ => none) (str% "1.0") 4 hostOptions hostWorld exOrders Output.emptyWorld 0 (hostOut .macos) ∧
    (hostOut .linux).files (str% "/s/a/E1/a.sym") =
      some (Utf8.encode (str% "MODULE Linux x86_64 E1 a\nFILE 0 /build/src/x.c\nFUNC 2000 10 0 b()\n2000 10 20 0\nSTACK CFI 1\n")) ∧
    (hostOut .macos).files (str% "/s/a/E1/a.sym") =
      some (Utf8.encode (str% "MODULE Linux x86_64 E1 a\nFILE 0 /build/a/../src/x.c\nFUNC 2000 10 0 b()\n2000 10 20 0\nSTACK CFI 1\n")) :=
  ⟨hostExits .linux (by decide +kernel), hostExits .macos (by decide +kernel), by decide +kernel, by decide +kernel⟩

/-- On a Mac and on Windows the same ELF file gives the same, whatever is on the disk. -/
example (real real' : Str → Option Str) (code : Nat) (out' : Output.World) :
    Exits ((hostEnv.on .macos real).on .windows real') (str% "1.0") 4 hostOptions hostWorld exOrders Output.emptyWorld code out' ↔
      Exits (hostEnv.on .macos real) (str% "1.0") 4 hostOptions hostWorld exOrders Output.emptyWorld code out' := by
  refine C100_machines_partial _ _ _ _ _ _ _ _ _ rfl rfl (fun w' hw f hf b hb => ?_) code out'
  show ∀ o, (Except.ok hostElf : Except Str ObjInput) = .ok o → Alike .linux o .macos .windows real real'
  exact fun o _ => alike_foreign o _ _ (fun h => h) (fun h => h)

/-- A PE file on Linux and on a Mac. -/
example (real real' : Str → Option Str) (code : Nat) (out' : Output.World) :
    let env := { hostEnv with parsers := { exParsers with peek := fun _ => .pe } }
    Exits ((env.on .linux real).on .macos real') (str% "1.0") 4 hostOptions hostWorld exOrders Output.emptyWorld code out' ↔
      Exits (env.on .linux real) (str% "1.0") 4 hostOptions hostWorld exOrders Output.emptyWorld code out' :=
  C100_windows _ _ _ _ _ _ _ _ _ rfl rfl (fun h => by cases h) (fun h => by cases h) (fun _ _ _ _ _ _ => .inl rfl) code out'

/-- A path without `..` is recorded alike on Linux and on a Mac. -/
example : Alike .linux { hostElf with functions := .ok [some (.mk 0x2000 0x10 (nm (str% "b")) (compDir "/build/a") [⟨0x2000, some 16, refTo "/src" "x.c", 20⟩] [])] }
    .linux .macos (fun _ => none) (fun _ => none) := by
  refine alike_resolved _ _ _ ?_
  rintro fs h f hm c i hr path hp
  cases h
  simp only [List.mem_cons, Option.some.injEq, List.not_mem_nil, or_false] at hm
  subst hm
  have : c = compDir "/build/a" ∧ i = refTo "/src" "x.c" := by
    cases hr with
    | here _ l hl => simp only [Func.lines, List.mem_cons, List.not_mem_nil, or_false] at hl; subst hl; exact ⟨rfl, rfl⟩
    | inlined _ g _ _ hg _ => cases hg
  obtain ⟨rfl, rfl⟩ := this
  have hq : path = str% "/src/x.c" := by
    rw [(recordedPath_iff { platform := .linux, canonicalize := false, canon := fun _ => none, mapping := fun _ => none } _ _ path).mp
      ⟨path, hp, (fun h => by cases h), fun _ => rfl⟩]
    decide +kernel
  subst hq
  exact ⟨fun r h => (by rcases h with h | h <;> cases h), by unfold Resolved; decide +kernel⟩

end Run
end DumpSyms
