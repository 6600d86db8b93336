import Verif.Model.WinOffline
import Verif.Model.WinChecked
/-!
# The program from the command line, in every build that is modelled

`Model/Cli` has this for the release build on Unix.  The table of arguments (src/main.rs:17-138) is the same in all builds.
-/
namespace DumpSyms
namespace Builds

/-- The builds: the release build on Unix and on Windows, those without the `http` feature (Cargo.toml:15-21, src/dumper.rs:169-179, 267-274), and those with overflow checks. -/
inductive Build where
  | unix
  | windows
  | offline
  | winOffline
  | checked
  | winChecked
deriving DecidableEq, Repr

/-- src/main.rs:140-246 `main`, once the options are known: how a process of the build can end, and what is written then. -/
def Build.Exits (b : Build) (env : Dumper.Env) (version : Str) (cpus : Nat) (o : Run.Options) (w : Cache.World) (orders : Run.Orders) (out : Output.World)
    (code : Nat) (out' : Output.World) : Prop :=
  match b with
  | .unix => Run.Exits env version cpus o w orders out code out'
  | .windows => WinHost.Exits env version cpus o w orders out code out'
  | .offline => Offline.Exits env version cpus o w.disk orders out code out'
  | .winOffline => WinOffline.Exits env version cpus o w.disk orders out code out'
  | .checked => CheckedRun.Exits env version cpus o w orders out code out'
  | .winChecked => WinChecked.Exits env version cpus o w orders out code out'

/-- src/main.rs:140-246 `main`, from the command line (without the name of the program): how a process of the build can end, and what is
written then.  The arguments are valid Unicode, as in `Model/Cli`. -/
inductive Ends (b : Build) (env : Dumper.Env) (version arch : Str) (cpus : Nat) (argv : List Str) (w : Cache.World) (orders : Run.Orders)
    (out : Output.World) : Nat → Output.World → Prop where
  | stops (code : Nat) (h : Cli.parse arch argv = .exit code) : Ends b env version arch cpus argv w orders out code out
  | runs (o : Run.Options) (code : Nat) (out' : Output.World) (h : Cli.parse arch argv = .ok o)
      (he : b.Exits env version cpus o w orders out code out') : Ends b env version arch cpus argv w orders out code out'

end Builds
end DumpSyms
