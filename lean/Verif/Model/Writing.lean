import Verif.Model.Output
import Verif.Model.Threads
/-!
# Writing a module, call by call

`Output.store` gives what has been written when a module is complete.  Here it is taken apart into the calls that change something outside
the process, because the workers of a run over several files write at the same time, and because a process can be stopped in between.
A call of `write` takes any number of the bytes it is given, at least one, and the rest is written by another call.  A file that is open
has its own position, counted from its opening; another thread may have emptied or overwritten the file since.
-/
namespace DumpSyms
namespace Output

/-- A call that is still to be made: `fs::create_dir_all`, `File::create`, or writing `bytes` to an open destination, `pos` bytes of which
have been written. -/
inductive Todo where
  | mkdirs (d : Str)
  | create (p : Str)
  | write (fo : FileOutput) (pos : Nat) (bytes : Bytes)
  deriving DecidableEq

/-- `write` at a position of a file: what was there is overwritten, and a gap before it is filled with zeros. -/
def writeAt (old : Bytes) (pos : Nat) (bytes : Bytes) : Bytes :=
  (old ++ List.replicate (pos - old.length) 0).take pos ++ bytes ++ old.drop (pos + bytes.length)

/-- What a call of `write` changes.  The streams have no position. -/
def World.write (w : World) (fo : FileOutput) (pos : Nat) (bytes : Bytes) : World :=
  match fo with
  | .path p => { w with files := fun q => if q = p then some (writeAt ((w.files p).getD []) pos bytes) else w.files q }
  | .stdout => { w with stdout := w.stdout ++ bytes }
  | .stderr => { w with stderr := w.stderr ++ bytes }

/-- Making a call, `k` being the number of bytes that a `write` takes: what is left of it, and what has changed. -/
def Todo.make (k : Nat) : Todo → World → List Todo × World
  | .mkdirs d, w => ([], { w with dirs := d :: w.dirs })
  | .create p, w => ([], w.receive (.path p) [])
  | .write fo pos bytes, w =>
    (if k < bytes.length then [.write fo (pos + k) (bytes.drop k)] else [], w.write fo pos (bytes.take k))

/-- src/dumper.rs:188-201 `get_writer_for_sym`: the call that opens the destination. -/
def opening : FileOutput → List Todo
  | .path p => [.create p]
  | .stdout => []
  | .stderr => []

/-- The calls of `writeTo` (src/dumper.rs:188-201 and 233-234, 240-241), and what it returns. -/
def todoTo (io : IoEnv) (text : Res Str) (fo : FileOutput) : Res Unit × List Todo :=
  if opens io fo then
    match text with
    | .ok t =>
      let r := dump (io.room fo) io.capacity (io.chunks t)
      (if r.1 then .ok () else .err (str% "write"), opening fo ++ [.write fo 0 r.2])
    | .err m => (.err m, opening fo)
    | .panic => (.panic, opening fo)
  else (.panic, [])

/-- The calls of `writeStore` (src/dumper.rs:229-237). -/
def todoStore (io : IoEnv) (text : Res Str) (p : Str) : Res Unit × List Todo :=
  match Path.parent p with
  | none => (.panic, [])
  | some d =>
    if io.mkdirs d then
      let r := todoTo io text (.path p)
      (r.1, .mkdirs d :: r.2)
    else (.err (str% "create_dir_all"), [])

/-- The calls of `store` (src/dumper.rs:203-246). -/
def todoOf (io : IoEnv) (extra : Option (List Str)) (out : Out) (checkCfi : Bool) (o : ObjectInfo) : Res Unit × List Todo :=
  if checkCfi && !o.hasStack then (.err (str% "No CFI data"), [])
  else
    let d := destinations out o
    let text := o.display extra
    let r := match d.2 with
      | some p => todoStore io text p
      | none => (.ok (), [])
    match r.1 with
    | .ok () =>
      match d.1 with
      | some fo =>
        let r' := todoTo io text fo
        (r'.1, r.2 ++ r'.2)
      | none => r
    | _ => r

/-- The calls that a module takes. -/
def callsOf (io : IoEnv) (extra : Option (List Str)) (out : Out) (checkCfi : Bool) (o : ObjectInfo) : List Todo := (todoOf io extra out checkCfi o).2

/-- The states that the writing of a module goes through: the calls left, and what is written so far. -/
inductive Written (io : IoEnv) (extra : Option (List Str)) (out : Out) (checkCfi : Bool) (o : ObjectInfo) (w : World) : List Todo → World → Prop where
  | start : Written io extra out checkCfi o w (callsOf io extra out checkCfi o) w
  | call (k : Nat) (t : Todo) (ts : List Todo) (w' : World) (hk : 0 < k) (h : Written io extra out checkCfi o w (t :: ts) w') :
      Written io extra out checkCfi o w ((t.make k w').1 ++ ts) (t.make k w').2

end Output

namespace Threads

/-- The module a worker is writing (src/dumper.rs:362 and 430). -/
def W.job : W → Option Item
  | .storing d => some d
  | .dumping d => some d
  | _ => none

/-- A moment of a run: where the threads are, what is written so far, and the calls that each worker has still to make before it is done
with the module it is writing. -/
structure Moment where
  s : State
  out : Output.World
  todo : Nat → List Output.Todo

/-- Who moves: a thread, or a worker making the next call of its writing, which takes `k` bytes. -/
inductive Turn where
  | move (a : Action)
  | call (i k : Nat)
  deriving DecidableEq

/-- The calls of worker `i` after it has moved to the state `s`: those of the module it has taken up. -/
def State.todo (calls : ObjectInfo → List Output.Todo) (s : State) (i : Nat) : List Output.Todo :=
  match s.ws[i]?.bind W.job with
  | some d => calls d.info
  | none => []

/-- One step.  A worker that is writing moves on when it has made all its calls. -/
def Turn.go (env : Env) (calls : ObjectInfo → List Output.Todo) : Turn → Moment → Option Moment
  | .move (.worker i), m =>
    if m.todo i = [] then
      (act env (.worker i) m.s).map fun s => { m with s := s, todo := fun j => if j = i then s.todo calls i else m.todo j }
    else none
  | .move a, m => (act env a m.s).map fun s => { m with s := s }
  | .call i k, m =>
    if m.s.crashed || k = 0 then none
    else match m.todo i with
      | [] => none
      | t :: ts =>
        let r := t.make k m.out
        some { m with out := r.2, todo := fun j => if j = i then r.1 ++ ts else m.todo j }

/-- The moments a run can go through. -/
inductive Moments (env : Env) (calls : ObjectInfo → List Output.Todo) (out : Output.World) : Moment → Prop where
  | init : Moments env calls out ⟨init env, out, fun _ => []⟩
  | step {m m' : Moment} (a : Turn) : Moments env calls out m → a.go env calls m = some m' → Moments env calls out m'

end Threads
end DumpSyms
