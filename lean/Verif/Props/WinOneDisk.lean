import Verif.Model.WinOneDisk
import Verif.Props.OneDisk
import Verif.Props.WinRunSamples
/-!
# C130: a destination may be one of the files that are read, on a Windows machine
-/
namespace DumpSyms
namespace WinHost
open Dumper (Env Config)
open Run (Seen Orders overlay played play played_moments whole exRun exOrders exTwo)

/-- **C130.** A run over several files on the disk of a Windows machine that is both read and written ends in exactly the ways, and leaves exactly
what, it does when the destinations are kept apart from all that is read. -/
theorem C130_several (env : Env) (seen : Output.World → Seen) (extra : Option (List Str)) (config : Config) (files : List Str) (orders : Orders)
    (out : Output.World) (horder : ∀ t, (orders.results t).Perm t) (hstart : (seen out).env = env) (r : Res Unit) (out' : Output.World) :
    SharedSeveral env seen extra config files orders out r out' ↔ SeveralFiles env extra config files (seen out).disks orders out r out' := by
  have key : ∀ mapping arch, sharedParse seen config files mapping arch out =
      (threads env extra config files (seen out).disks orders mapping arch out).parse := by
    intro mapping arch
    funext i
    subst hstart
    rfl
  have hm := fun mapping arch m => Threads.C106_moments (threads env extra config files (seen out).disks orders mapping arch out) horder
    (callsOf env.io extra config.output config.checkCfi) out (sharedParse seen config files mapping arch) (key mapping arch) m
  constructor
  · intro h
    cases h with
    | badOptions m h => exact .badOptions m h
    | badMapping h => exact .badMapping h
    | returned mapping arch m h hr hs => exact .returned mapping arch m h ((hm mapping arch m).mp hr) hs
    | crashed mapping arch m h hr hs => exact .crashed mapping arch m h ((hm mapping arch m).mp hr) hs
  · intro h
    cases h with
    | badOptions m h => exact .badOptions m h
    | badMapping h => exact .badMapping h
    | returned mapping arch m h hr hs => exact .returned mapping arch m h ((hm mapping arch m).mpr hr) hs
    | crashed mapping arch m h hr hs => exact .crashed mapping arch m h ((hm mapping arch m).mpr hr) hs

/-- **C130, while reading.** As long as an input of a run over several files is still to be read or is being read, nothing has been written, and no call
that writes is under way. -/
theorem C130_read_first (env : Env) (extra : Option (List Str)) (config : Config) (files : List Str) (ws : Nat → Cache.World) (orders : Orders)
    (mapping : Option (List Mapping.Generator)) (arch : Str) (out : Output.World) (horder : ∀ t, (orders.results t).Perm t) (m : Threads.Moment)
    (h : Threads.Moments (threads env extra config files ws orders mapping arch out) (callsOf env.io extra config.output config.checkCfi) out m)
    (f : Nat) (hf : m.s.ToRead f) : m.out = out ∧ (∀ i, m.todo i = []) ∧ m.s.log = [] :=
  Threads.C106_read_first (threads env extra config files ws orders mapping arch out) horder _ _ m h f hf

/-! ### A run whose output is one of its inputs -/

/-- `dump_syms C:\d\a C:\d\b -o C:\d\b`: the second input is overwritten. -/
def winOverOut : Output.Out := .file (.path (str% "C:\\d\\b"))

/-- Every file is read as it is at that moment. -/
def winOverSeen (out : Output.World) : Seen := ⟨winEnv, fun _ => { winTwoDisk with disk := overlay Output.emptyWorld winTwoDisk.disk out }⟩

def winOverThreads : Threads.Env :=
  threads winEnv none (exTwo winOverOut) winFiles (winOverSeen Output.emptyWorld).disks exOrders none (str% "x86_64") Output.emptyWorld
def winOverLast : Threads.Moment := played winOverThreads (winCalls winOverOut) Output.emptyWorld (whole exRun)

/-- **C130, a run whose output is one of its inputs.** The run ends well on the one disk.  Once it has ended, its second input could not be read any
more: the file has become a symbol file. -/
theorem C130_over_input : SharedSeveral winEnv winOverSeen none (exTwo winOverOut) winFiles exOrders Output.emptyWorld (.ok ()) winOverLast.out ∧
    (winOverLast.out.files (str% "C:\\d\\b")).isSome ∧
    (match sharedParse winOverSeen (exTwo winOverOut) winFiles none (str% "x86_64") Output.emptyWorld 1 with | .ok o => o.debugId == str% "D1" | _ => false) = true ∧
    (match sharedParse winOverSeen (exTwo winOverOut) winFiles none (str% "x86_64") winOverLast.out 1 with | .ok _ => true | _ => false) = false :=
  ⟨(C130_several winEnv winOverSeen none (exTwo winOverOut) _ exOrders Output.emptyWorld (fun _ => .refl _) rfl (.ok ()) _).mpr
    (.returned none (str% "x86_64") winOverLast rfl (played_moments (by decide +kernel)) (by decide +kernel)), by decide +kernel, by decide +kernel,
    by decide +kernel⟩

/-- While the second input is being read, nothing is written yet. -/
example (m : Threads.Moment) (h : Threads.Moments winOverThreads (winCalls winOverOut) Output.emptyWorld m)
    (hf : m.s.ToRead 1) : m.out = Output.emptyWorld :=
  (C130_read_first winEnv none (exTwo winOverOut) winFiles _ exOrders none (str% "x86_64") _ (fun _ => .refl _) m h 1 hf).1
example : (Threads.init winOverThreads).ToRead 1 := .inl (by decide)

end WinHost
end DumpSyms
