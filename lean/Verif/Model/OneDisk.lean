import Verif.Model.Run
/-!
# Reading from the disk that is written to

In `Model/Run` the files that are read and the destinations are kept apart.  Here a worker that reads an input meets what has been written
by then: a destination can be an input, a file beside an input, a file of a cache, or a source file whose contents a path mapping asks for,
under its own name or another one (a link).  So everything that reading depends on may depend on what the destinations hold.
-/
namespace DumpSyms
namespace Threads

/-- The moments of a run whose inputs are read when the destinations hold what they hold at that moment: `parse out f` is what a worker makes
of input `f` then (src/dumper.rs:412-417).  Apart from that they are those of `Moments`. -/
inductive SharedMoments (env : Env) (parse : Output.World → Nat → Res ObjectInfo) (calls : ObjectInfo → List Output.Todo) (out : Output.World) :
    Moment → Prop where
  | init : SharedMoments env parse calls out ⟨init env, out, fun _ => []⟩
  | step {m m' : Moment} (a : Turn) : SharedMoments env parse calls out m → a.go { env with parse := parse m.out } calls m = some m' →
      SharedMoments env parse calls out m'

end Threads

namespace Run

/-- What the program meets when the destinations hold what they hold: the surroundings (real paths, contents of source files, servers) and, for
each input, the files that can be read. -/
structure Seen where
  env : Dumper.Env
  disks : Nat → Cache.World

/-- Reading an input of a run over several files (src/dumper.rs:410-417) when the destinations hold `out`. -/
def sharedParse (seen : Output.World → Seen) (config : Dumper.Config) (files : List Str) (mapping : Option (List Mapping.Generator)) (arch : Str)
    (out : Output.World) (i : Nat) : Res ObjectInfo :=
  match files[i]? with
  | some f => (Dumper.parseInput (seen out).env config mapping arch f ((seen out).disks i)).1
  | none => .panic

/-- src/dumper.rs:455-510 `several_files` on a disk that is both read and written (`SeveralFiles` otherwise).  The options are prepared before
anything is written. -/
inductive SharedSeveral (env : Dumper.Env) (seen : Output.World → Seen) (extra : Option (List Str)) (config : Dumper.Config) (files : List Str)
    (orders : Orders) (out : Output.World) : Res Unit → Output.World → Prop where
  | badOptions (m : Str) (h : Dumper.prepare env config = .err m) : SharedSeveral env seen extra config files orders out (.err m) out
  | badMapping (h : Dumper.prepare env config = .panic) : SharedSeveral env seen extra config files orders out .panic out
  | returned (mapping : Option (List Mapping.Generator)) (arch : Str) (m : Threads.Moment)
      (h : Dumper.prepare env config = .ok (mapping, arch))
      (hr : Threads.SharedMoments (threads env extra config files (seen out).disks orders mapping arch out)
        (sharedParse seen config files mapping arch) (Output.callsOf env.io extra config.output config.checkCfi) out m)
      (hs : m.s.Returned (threads env extra config files (seen out).disks orders mapping arch out)) :
      SharedSeveral env seen extra config files orders out (.ok ()) m.out
  | crashed (mapping : Option (List Mapping.Generator)) (arch : Str) (m : Threads.Moment)
      (h : Dumper.prepare env config = .ok (mapping, arch))
      (hr : Threads.SharedMoments (threads env extra config files (seen out).disks orders mapping arch out)
        (sharedParse seen config files mapping arch) (Output.callsOf env.io extra config.output config.checkCfi) out m)
      (hs : m.s.crashed = true) :
      SharedSeveral env seen extra config files orders out .panic m.out

/-- The disk that is read once the destinations hold `out'`, when every destination is the file of that name: a file whose contents have changed
since `out` is read as it is now. -/
def overlay (out : Output.World) (d : Disk) (out' : Output.World) : Disk := fun p =>
  if out'.files p = out.files p then d p else (out'.files p).map fun b => .file b true

end Run
end DumpSyms
