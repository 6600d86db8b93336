import Verif.Model.WinRun
import Verif.Model.Together
/-!
# Processes that run at the same time on a Windows machine

As `Verif.Model.Together`, with the paths of Windows.  (`File::create` lets other processes open the file too: on Windows the standard library asks for
all kinds of sharing.)
-/
namespace DumpSyms
namespace WinHost
open Run (Proc actionOf)

/-- src/main.rs:140-246, src/action.rs:20-57, src/dumper.rs:276-300: the process dumps one file; it has read it, made the module `m` of it, and is
about to write it with the header lines `extra`. -/
def Reads (env : Dumper.Env) (p : Proc) (extra : List Str) (c : Dumper.Config) (m : ObjectInfo) : Prop :=
  Main.getExtraInfo p.version p.options.extraInfo p.options.noGenerator = .ok extra ∧ actionOf p.cpus p.options = .dump c ∧
    ∃ f, p.options.filenames = [f] ∧ (readSingle env c f p.disk).1 = .ok m

/-- What processes running at the same time can come to: for each of them the calls it has still to make (none at all before it has read its
input), and what the destinations hold.  A call of `write` takes `k` of the bytes it is given (src/dumper.rs:188-246). -/
inductive Together (env : Dumper.Env) (ps : List Proc) (out : Output.World) : (Nat → Option (List Output.Todo)) → Output.World → Prop where
  | start : Together env ps out (fun _ => none) out
  | read (st : Nat → Option (List Output.Todo)) (out' : Output.World) (i : Nat) (p : Proc) (extra : List Str) (c : Dumper.Config) (m : ObjectInfo)
      (h : Together env ps out st out') (hi : ps[i]? = some p) (hs : st i = none) (hr : Reads env p extra c m) :
      Together env ps out (fun j => if j = i then some (callsOf env.io (some extra) c.output c.checkCfi m) else st j) out'
  | call (st : Nat → Option (List Output.Todo)) (out' : Output.World) (i k : Nat) (t : Output.Todo) (ts : List Output.Todo)
      (h : Together env ps out st out') (hs : st i = some (t :: ts)) (hk : 0 < k) :
      Together env ps out (fun j => if j = i then some ((t.make k out').1 ++ ts) else st j) (t.make k out').2

end WinHost
end DumpSyms
