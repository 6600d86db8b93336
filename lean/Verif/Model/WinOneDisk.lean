import Verif.Model.WinRun
import Verif.Model.OneDisk
/-!
# Reading from the disk that is written to, on a Windows machine

As `Verif.Model.OneDisk`, with the paths of Windows.
-/
namespace DumpSyms
namespace WinHost
open Run (Seen Orders)

/-- Reading an input of a run over several files (src/dumper.rs:410-417) when the destinations hold `out`. -/
def sharedParse (seen : Output.World → Seen) (config : Dumper.Config) (files : List Str) (mapping : Option (List Mapping.Generator)) (arch : Str)
    (out : Output.World) (i : Nat) : Res ObjectInfo :=
  match files[i]? with
  | some f => (parseInput (seen out).env config mapping arch f ((seen out).disks i)).1
  | none => .panic

/-- src/dumper.rs:455-510 `several_files` on a disk that is both read and written (`SeveralFiles` otherwise).  The options are prepared before
anything is written. -/
inductive SharedSeveral (env : Dumper.Env) (seen : Output.World → Seen) (extra : Option (List Str)) (config : Dumper.Config) (files : List Str)
    (orders : Orders) (out : Output.World) : Res Unit → Output.World → Prop where
  | badOptions (m : Str) (h : Dumper.prepare env config = .err m) : SharedSeveral env seen extra config files orders out (.err m) out
  | badMapping (h : Dumper.prepare env config = .panic) : SharedSeveral env seen extra config files orders out .panic out
  | returned (mapping : Option (List Mapping.Generator)) (arch : Str) (m : Threads.Moment)
      (h : Dumper.prepare env config = .ok (mapping, arch))
      (hr : Threads.SharedMoments (threads env extra config files (seen out).disks orders mapping arch out)
        (sharedParse seen config files mapping arch) (callsOf env.io extra config.output config.checkCfi) out m)
      (hs : m.s.Returned (threads env extra config files (seen out).disks orders mapping arch out)) :
      SharedSeveral env seen extra config files orders out (.ok ()) m.out
  | crashed (mapping : Option (List Mapping.Generator)) (arch : Str) (m : Threads.Moment)
      (h : Dumper.prepare env config = .ok (mapping, arch))
      (hr : Threads.SharedMoments (threads env extra config files (seen out).disks orders mapping arch out)
        (sharedParse seen config files mapping arch) (callsOf env.io extra config.output config.checkCfi) out m)
      (hs : m.s.crashed = true) :
      SharedSeveral env seen extra config files orders out .panic m.out

end WinHost
end DumpSyms
