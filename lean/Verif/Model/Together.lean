import Verif.Model.Run
/-!
# Processes that run at the same time

Several processes, each of which dumps one file, can be at work on one file system, for example when a build starts one for each library.
They share the destinations that are files; each has its own standard output, which is left out of account here.
-/
namespace DumpSyms
namespace Run

/-- A process: the version of the program, the number of CPUs, the options, and the disk (with the list of requests) that it reads from. -/
structure Proc where
  version : Str
  cpus : Nat
  options : Options
  disk : Cache.World

/-- src/main.rs:140-246, src/action.rs:20-57, src/dumper.rs:276-300: the process dumps one file; it has read it, made the module `m` of it, and is
about to write it with the header lines `extra`. -/
def Proc.Reads (env : Dumper.Env) (p : Proc) (extra : List Str) (c : Dumper.Config) (m : ObjectInfo) : Prop :=
  Main.getExtraInfo p.version p.options.extraInfo p.options.noGenerator = .ok extra ∧ actionOf p.cpus p.options = .dump c ∧
    ∃ f, p.options.filenames = [f] ∧ (Dumper.readSingle env c f p.disk).1 = .ok m

/-- What processes running at the same time can come to: for each of them the calls it has still to make (none at all before it has read its
input), and what the destinations hold.  A call of `write` takes `k` of the bytes it is given (src/dumper.rs:188-246). -/
inductive Together (env : Dumper.Env) (ps : List Proc) (out : Output.World) : (Nat → Option (List Output.Todo)) → Output.World → Prop where
  | start : Together env ps out (fun _ => none) out
  | read (st : Nat → Option (List Output.Todo)) (out' : Output.World) (i : Nat) (p : Proc) (extra : List Str) (c : Dumper.Config) (m : ObjectInfo)
      (h : Together env ps out st out') (hi : ps[i]? = some p) (hs : st i = none) (hr : p.Reads env extra c m) :
      Together env ps out (fun j => if j = i then some (Output.callsOf env.io (some extra) c.output c.checkCfi m) else st j) out'
  | call (st : Nat → Option (List Output.Todo)) (out' : Output.World) (i k : Nat) (t : Output.Todo) (ts : List Output.Todo)
      (h : Together env ps out st out') (hs : st i = some (t :: ts)) (hk : 0 < k) :
      Together env ps out (fun j => if j = i then some ((t.make k out').1 ++ ts) else st j) (t.make k out').2

end Run
end DumpSyms
