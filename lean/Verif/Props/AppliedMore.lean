import Verif.Props.Applied
import Verif.Props.CrashWrite
import Verif.Props.Together
import Verif.Props.Downloads
import Verif.Props.MappedPaths
/-!
# More theorems applied
-/
namespace DumpSyms
open Dumper (exEnv exConfig exWorld exObj)

/-- C61 applied: no symbol server is configured, so a file given by its id cannot be found. -/
example : ∃ m, Dumper.getFromId exEnv { exConfig with debugId := some (str% "ID") } (str% "/d/a") (str% "a") (exWorld []) = (.err m, exWorld []) :=
  ((Dumper.C61_by_id exEnv { exConfig with debugId := some (str% "ID") } (str% "ID") (str% "/d/a") (str% "a") (exWorld []) (.inl rfl)
    (.noConfig (str% "/home/u") rfl rfl) (by unfold ProperComp; decide) (by unfold ProperComp; decide) (by intro q es h; cases h)
    (by intro u st raw p h; cases h) (by intro js j h; cases h)).2 _).mpr (.noServers ..)

/-- C88 applied: the PE records no PDB with a name, and both builds dump it alone. -/
example : let w := exWorld [(str% "/d/m.exe", .file [3, 1] true)]
    Dumper.readSingle exEnv exConfig (str% "/d/" ++ str% "m.exe") w = (Offline.readSingle exEnv exConfig (str% "/d/" ++ str% "m.exe") w.disk, w) := by
  intro w
  refine Offline.C88_pe_alone exEnv exConfig w (.inr rfl) (by unfold ProperComp; decide)
    (Run.crashSane _ (by intro x hx es; rcases List.mem_singleton.mp hx with rfl; intro h; cases h)) rfl rfl (b := [3, 1])
    ⟨_, str% "/d/", str% "m.exe", [3, 1], .file _ rfl, rfl, .inr rfl, by unfold ProperComp; decide, .plain rfl⟩
    (by
      intro pe rec h
      cases h
      refine ⟨by unfold ProperComp; decide, ?_⟩
      intro r hr
      cases hr
      exact .inl (by decide)) rfl (pe := exObj .pe (str% "A1") (str% "x86") none) (recorded := some (str% "C:\\x\\..")) rfl
    (mapping := none) (arch := str% "x86_64") rfl rfl (servers := none) (found := none) (.noConfig (str% "/home/u") rfl rfl)
    (.noFile _ (by decide)) (by intro b n o fs h; cases h)

/-- C97 applied: another worker has asked a server for a file, which no server of this run's configuration is. -/
example (log : List Cache.Request) : (Dumper.parseInput exEnv exConfig none (str% "x86_64") (str% "/d/a") { Run.exDisk with log := log }).1 =
    (Dumper.parseInput exEnv exConfig none (str% "x86_64") (str% "/d/a") Run.exDisk).1 :=
  Run.C97_no_server_partial (.asked _ log .start) (by
    intro servers h
    have : Cache.getSymServers exEnv.home Run.exDisk.disk none = .ok none := by decide +kernel
    rw [this] at h; cases h) exConfig none (str% "x86_64") (str% "/d/a")

namespace Output
open Run

/-- C98 applied: two processes that store the same module write nothing else. -/
example (p : Str) (h : ¬ InStore (str% "/s") (str% "lib.so") (str% "E1") p) : gap.2.files p = none :=
  C98_untouched exEnv same2 p (by
    intro q hq extra c m hr
    have : q = sameProc := by simpa [same2] using hq
    subst this
    obtain ⟨rfl, rfl, rfl⟩ := sameReads.same hr
    intro hreq
    cases hreq with
    | file e => rcases e with e | ⟨d, e⟩ <;> cases e
    | store e _ hin => rcases e with e | ⟨fo, e⟩ <;> cases e; exact h hin) _ _ _ gap_together

end Output

namespace Dumper
open Mapping

/-- C79 applied: with the mapping of the sample, the path a frame shows is the one that the rules give for the recorded path. -/
example : ∃ rules, Configured lockedEnv.map none (some [str% "x"]) (some [str% "git:{1}"]) none rules ∧ ∀ c r p,
    RecordedPath .linux (OnHost lockedEnv.os .linux ∧ ¬ (exElf.format = .pe ∧ exElf.hasDebugInfo = true)) lockedEnv.canon c r p →
      ¬ Unreadable lockedEnv.map rules p → MapsTo lockedEnv.map rules p (printedPath (cenv lockedEnv .linux gitMapping exElf) c r) := by
  obtain ⟨rules, h1, h2⟩ := C79_frames lockedEnv
    (by intro d b hb; simp only [lockedEnv, Mapping.sampleEnv, List.mem_map] at hb; obtain ⟨x, _, rfl⟩ := hb; omega)
    (fun l => List.reverse_perm l) none (some [str% "x"]) (some [str% "git:{1}"]) none gitMapping rfl .linux exElf
    (printedPath (cenv lockedEnv .linux gitMapping exElf)) (printedOrigin (cenv lockedEnv .linux gitMapping exElf)) ((printed_iff _ _ _).mpr ⟨rfl, rfl⟩)
  exact ⟨rules, h1, fun c r p hp hu => (h2 c r p hp hu _).mpr rfl⟩

end Dumper

namespace Run
open Dumper

def shutOut : Env := { exEnv with io := { Output.goodDisk with create := fun _ => false } }

theorem shutSane : Sane shutOut (crashDisk [1]).disk := by
  have h := crashSane [(str% "/d/a", .file [1] true)] (by intro x hx es; rcases List.mem_singleton.mp hx with rfl; intro h; cases h)
  exact ⟨h.dirs, h.room, h.arrivals, h.cwd⟩

theorem shutContents {config : Config} (h1 : config.debugId = none) (h2 : config.codeId = none) {b : Bytes} {w1 : Cache.World}
    (h : Contents shutOut config (str% "/d/" ++ str% "a") (str% "a") (crashDisk [1]) b w1) : b = [1] ∧ w1 = crashDisk [1] := by
  cases h with
  | byPath _ _ _ h =>
    refine ⟨?_, rfl⟩
    have hr := ((C77_read_any shutOut.net.cab (crashDisk [1]).disk (str% "/d/" ++ str% "a")
      (fun _ _ _ => ⟨str% "/d/", str% "a", rfl, .inr rfl, by unfold ProperComp; decide⟩) shutSane.dirs).1 b).mpr h
    have : Files.readFile shutOut.net.cab (crashDisk [1]).disk (str% "/d/" ++ str% "a") = .ok [1] := by decide +kernel
    rw [this] at hr; cases hr; rfl
  | byId id _ _ _ h =>
    rw [h1, h2] at h
    rcases h with h | ⟨_, h⟩ <;> cases h

/-- C86 applied: the file of the store cannot be created, and the run crashes. -/
example : ∃ out', ∀ code out'', Exits shutOut (str% "1.0") 4 crashOptions (crashDisk [1]) exOrders Output.emptyWorld code out'' ↔ code = 101 ∧ out'' = out' := by
  obtain ⟨c, hact, hc⟩ := (C64_config 4 crashOptions).2 rfl
  obtain ⟨m, hm⟩ : ∃ m, ObjectInfo.fromObject (cenv shutOut .linux none exElf) false .linux exElf (str% "a") none none = .ok m := ⟨_, rfl⟩
  have hname : m.fileName = str% "lib.so" := by cases hm; rfl
  refine C86_create shutOut (str% "1.0") 4 crashOptions rfl (str% "/d/") (str% "a") (.inr rfl) (by unfold ProperComp; decide) rfl
    (by rintro id (h | h) <;> cases h) (crashDisk [1]) shutSane exOrders Output.emptyWorld c hc
    (fun b w1 h => by
      obtain ⟨rfl, rfl⟩ := shutContents hc.search.2.1 hc.search.2.2 h
      intro pe rec h
      cases h) [1] (crashDisk [1])
    (.byPath _ hc.search.2.1 hc.search.2.2 ⟨_, str% "/d/", str% "a", [1], .file _ rfl, rfl, .inr rfl, by unfold ProperComp; decide, .plain rfl⟩)
    none rfl (str% "x86_64") rfl exElf (str% "a") none none .linux true (crashDisk [1]) (.elf _ rfl rfl) m hm (fun h => by cases h)
    (str% "/s/lib.so/E1/lib.so.sym") ?_ (fun _ => rfl) rfl
  intro fo
  rw [hname]
  constructor
  · rintro (⟨_, h, _⟩ | ⟨h, _⟩ | ⟨f, h, _⟩ | ⟨d, p, h, _, hin, rfl⟩)
    · cases h
    · cases h
    · cases h
    · cases h
      rw [inStore_iff (by decide)] at hin
      rw [hin]
      decide +kernel
  · rintro rfl
    exact .inr (.inr (.inr ⟨str% "/s", _, rfl, by decide, (inStore_iff (by decide)).mpr (by decide +kernel), rfl⟩))

/-- C86 applied: whatever way the crash comes about, it is one of those described. -/
example (out' : Output.World) (c : Config) (hc : Configures 4 crashOptions c)
    (h : Exits shutOut (str% "1.0") 4 crashOptions (crashDisk [1]) exOrders Output.emptyWorld 101 out') :
    SureCrash shutOut crashOptions c (str% "/d/" ++ str% "a") (str% "a") (crashDisk [1]) ∨
      LateCrash shutOut crashOptions c (str% "/d/" ++ str% "a") (str% "a") (crashDisk [1]) :=
  C86_crash_partial shutOut
    (by intro d b hb; simp only [shutOut, exEnv, Mapping.sampleEnv, List.mem_map] at hb; obtain ⟨x, _, rfl⟩ := hb; omega)
    (fun l => List.reverse_perm l) (str% "1.0") 4 crashOptions rfl (str% "/d/") (str% "a") (.inr rfl) (by unfold ProperComp; decide) rfl
    (by rintro id (h | h) <;> cases h) ⟨(fun h => by cases h), fun h => by cases h⟩ (crashDisk [1]) shutSane exOrders Output.emptyWorld c hc
    (fun b w1 h => by
      obtain ⟨rfl, rfl⟩ := shutContents hc.search.2.1 hc.search.2.2 h
      intro pe rec h
      cases h) out' h

/-- C86 applied: with `-o f` and a store, no crash when the directory in the store cannot be made, although neither file can be created: that is an error before. -/
example (mk : Bool) : (∃ out', Exits { shutOut with io := { shutOut.io with mkdirs := fun _ => mk } } (str% "1.0") 4
    { crashOptions with output := some (str% "f") } (crashDisk [1]) exOrders Output.emptyWorld 101 out') ↔ mk = true := by
  obtain ⟨c, hact, hc⟩ := (C64_config 4 { crashOptions with output := some (str% "f") }).2 rfl
  obtain ⟨m, hm⟩ : ∃ m, ObjectInfo.fromObject (cenv shutOut .linux none exElf) false .linux exElf (str% "a") none none = .ok m := ⟨_, rfl⟩
  obtain ⟨text, ht⟩ : ∃ text, m.display (some (Infos (str% "1.0") { crashOptions with output := some (str% "f") })) = .ok text := by cases hm; exact ⟨_, rfl⟩
  have hlen : (Utf8.encode text).length ≤ 1000000 := by
    cases hm
    cases ht
    decide +kernel
  have hname : m.fileName = str% "lib.so" := by cases hm; rfl
  refine (C86_write { shutOut with io := { shutOut.io with mkdirs := fun _ => mk } } (str% "1.0") 4 { crashOptions with output := some (str% "f") } rfl
    (str% "/d/") (str% "a") (.inr rfl) (by unfold ProperComp; decide) rfl (by rintro id (h | h) <;> cases h) (crashDisk [1])
    ⟨shutSane.dirs, shutSane.room, shutSane.arrivals, shutSane.cwd⟩ exOrders Output.emptyWorld c hc
    (fun b w1 h => by
      have h' : Contents shutOut c (str% "/d/" ++ str% "a") (str% "a") (crashDisk [1]) b w1 := by
        cases h with
        | byPath _ h1 h2 h3 => exact .byPath _ h1 h2 h3
        | byId id s _ _ h1 h2 h3 => exact .byId id s _ _ h1 h2 h3
      obtain ⟨rfl, rfl⟩ := shutContents hc.search.2.1 hc.search.2.2 h'
      intro pe rec h
      cases h) [1] (crashDisk [1])
    (.byPath _ hc.search.2.1 hc.search.2.2 ⟨_, str% "/d/", str% "a", [1], .file _ rfl, rfl, .inr rfl, by unfold ProperComp; decide, .plain rfl⟩)
    none rfl (str% "x86_64") rfl exElf (str% "a") none none .linux true (crashDisk [1]) (.elf _ rfl rfl) m hm text ht ?_ ?_).trans ?_
  · exact List.flatten_singleton
  · intro fo; exact hlen
  · rw [hname]
    constructor
    · rintro (⟨v, h, _⟩ | ⟨_, h⟩)
      · cases h
      · cases h with
        | store d p parent _ _ _ _ h _ => exact h
        | output p _ _ _ h =>
          exact (h (str% "/s") _ _ rfl (by decide) ((inStore_iff (by decide)).mpr rfl) (by rfl)).1
    · rintro rfl
      exact .inr ⟨(fun h => by cases h), .store (str% "/s") _ _ rfl (by decide) ((inStore_iff (by decide)).mpr rfl) (by rfl) rfl rfl⟩

end Run
end DumpSyms
