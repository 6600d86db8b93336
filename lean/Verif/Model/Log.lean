import Verif.Model.Threads
/-!
# Model of what is logged about a run over several files

The level of the logger (src/main.rs:143-162) and the errors that `several_files` logs (src/dumper.rs:503-507).  The times, colours and texts
of the lines are not modelled, nor is what is logged at other places.  Setting up the logger is taken to succeed (its result is ignored,
src/main.rs:156-162).
-/
namespace DumpSyms
namespace Log

/-- `log::LevelFilter`, and `log::Level` (all but `off`). -/
inductive Level where
  | off | error | warn | info | debug | trace
  deriving DecidableEq

/-- The order of the levels in the crate `log`. -/
def Level.rank : Level → Nat
  | .off => 0
  | .error => 1
  | .warn => 2
  | .info => 3
  | .debug => 4
  | .trace => 5

/-- src/main.rs:143-150: the level for a value of `--verbose`. -/
def verbosity (v : Str) : Level :=
  if v = str% "off" then .off
  else if v = str% "warn" then .warn
  else if v = str% "info" then .info
  else if v = str% "debug" then .debug
  else if v = str% "trace" then .trace
  else .error

/-- Whether a line of level `m` is printed (crate `log`: `lvl <= max_level()`). -/
def shows (filter m : Level) : Bool := decide (m.rank ≤ filter.rank)

/-- Whether a worker returned an error. -/
def failed : Threads.W → Bool
  | .failed _ => true
  | _ => false

/-- src/dumper.rs:503-507: the number of errors logged so far, one for each worker that was joined and had returned an error. -/
def errors (s : Threads.State) : Nat := ((s.ws.take s.joined).filter failed).length

/-- How many of them are printed. -/
def printed (verbose : Str) (s : Threads.State) : Nat := if shows (verbosity verbose) .error then errors s else 0

end Log
end DumpSyms
