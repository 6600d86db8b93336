import Verif.Model.ObjectInfo
/-!
# Model of the multi-file part of src/dumper.rs (lines 339-510)

A transition system: the main thread, `n` workers, a bounded queue, the table of results behind a mutex, and an atomic
counter.  Every access to something shared (send, receive, lock, load, fetch_sub) is a step of its own, and the steps of the
threads interleave in any way.  Reading and parsing an input, and writing a symbol file, are parameters: arbitrary functions
giving a value, an error or a panic.  Simplifications: the work between two shared accesses is one step; spawning threads does not
fail; an operation of the channel never finds the other end gone (true: the main thread keeps both ends until it returns).
The lists of inputs carried along (`src`, `merged`, the arguments of `failed`, `aborting` and `panicked`) and `coordinator` are not read by
any step.
-/
namespace DumpSyms
namespace Threads

/-- An object together with the inputs it was made from. -/
structure Item where
  src : List Nat
  info : ObjectInfo
  deriving DecidableEq

/-- src/dumper.rs:339-350 `JobType` and `JobItem`, `none` being the order to stop (inputs are numbered). -/
inductive Msg where
  | get (f : Nat)
  | dump (d : Item)
  | stop
  deriving DecidableEq

/-- Where a worker is in src/dumper.rs:387-453 `consumer`. -/
inductive W where
  /-- line 398, `receiver.recv()` -/
  | idle
  /-- lines 412-417, reading and parsing an input -/
  | parsing (f : Nat)
  /-- line 419, waiting for the lock on the results -/
  | merging (d : Item)
  /-- line 422, telling everyone to stop after a failed merge (the lock is held), then failing -/
  | aborting (src lost : List Nat) (k : Nat)
  /-- line 435, `counter.load` -/
  | check
  /-- line 448, `counter.fetch_sub` -/
  | decr
  /-- line 438, waiting for the lock on the results -/
  | coord
  /-- line 362, writing the only module (the lock is held) -/
  | storing (d : Item)
  /-- lines 364-373 and 376, sending modules to dump and then orders to stop (the lock is held) -/
  | sending (ds : List Item) (k : Nat)
  /-- line 430, writing a module -/
  | dumping (d : Item)
  /-- returned `Ok` -/
  | ended
  /-- returned an error -/
  | failed (src : List Nat)
  /-- panicked -/
  | panicked (src lost : List Nat)
  deriving DecidableEq

/-- The surroundings.  `n` is the number of workers (line 465), `files` the number of inputs, `order` the iteration order of the table of
results, `hash` that of the tables inside `ObjectInfo::merge` (one order for each merge, named by the inputs it puts together). -/
structure Env where
  n : Nat
  files : Nat
  parse : Nat → Res ObjectInfo
  store : ObjectInfo → Res Unit
  order : List (Str × Item) → List (Str × Item)
  hash : List Nat → List (Str × Nat) → List (Str × Nat)

/-- The state. -/
structure State where
  queue : List Msg
  table : List (Str × Item)
  counter : Nat
  locked : Bool
  poisoned : Bool
  toSend : List Nat
  ws : List W
  joined : Nat
  crashed : Bool
  log : List Item
  merged : List Nat
  coordinator : Option Nat
  deriving DecidableEq

/-- src/dumper.rs:464-490: the state once the workers are started. -/
def init (env : Env) : State where
  queue := []
  table := []
  counter := env.files
  locked := false
  poisoned := false
  toSend := List.range env.files
  ws := List.replicate env.n .idle
  joined := 0
  crashed := false
  log := []
  merged := []
  coordinator := none

/-- Whether the bounded queue (line 468) has room. -/
def State.hasRoom (env : Env) (s : State) : Bool := decide (s.queue.length < env.n + 1)

/-- `HashMap::remove` and `HashMap::insert`. -/
def tableRemove (t : List (Str × Item)) (k : Str) : List (Str × Item) := t.filter (fun e => e.1 ≠ k)
def tableInsert (t : List (Str × Item)) (k : Str) (d : Item) : List (Str × Item) := (k, d) :: tableRemove t k

/-- What a worker in state `w` does next: its next state and the state of the rest.  `none`: it has to wait, or is finished. -/
def work (env : Env) (s : State) (i : Nat) : W → Option (W × State)
  | .idle =>
    match s.queue with
    | [] => none
    | .get f :: q => some (.parsing f, { s with queue := q })
    | .dump d :: q => some (.dumping d, { s with queue := q })
    | .stop :: q => some (.ended, { s with queue := q })
  | .parsing f =>
    match env.parse f with
    | .ok o => some (.merging { src := [f], info := o }, s)
    | .err _ => some (.failed [f], s)
    | .panic => some (.panicked [f] [], s)
  | .merging d =>
    if s.locked then none
    else if s.poisoned then some (.panicked d.src [], s)
    else
      match s.table.lookup d.info.debugId with
      | none =>
        some (.check, { s with table := tableInsert s.table d.info.debugId d, merged := d.src ++ s.merged })
      | some prev =>
        match ObjectInfo.merge (env.hash (d.src ++ prev.src)) d.info prev.info with
        | .ok c =>
          some (.check, { s with
            table := tableInsert (tableRemove s.table d.info.debugId) c.debugId { src := d.src ++ prev.src, info := c }
            merged := d.src ++ s.merged })
        | .err _ => some (.aborting d.src prev.src env.n, { s with
            table := tableRemove s.table d.info.debugId
            locked := true })
        | .panic => some (.panicked d.src prev.src, { s with
            table := tableRemove s.table d.info.debugId
            poisoned := true })
  | .aborting src lost (k + 1) =>
    if s.hasRoom env then some (.aborting src lost k, { s with queue := s.queue ++ [.stop] }) else none
  | .aborting src _ 0 => some (.failed src, { s with locked := false })
  | .check => if s.counter = 1 then some (.coord, { s with coordinator := some i }) else some (.decr, s)
  | .decr => some (.idle, { s with counter := s.counter - 1 })
  | .coord =>
    if s.locked then none
    else if s.poisoned then some (.panicked [] [], s)
    else
      match env.order s.table with
      | [(_, d)] => some (.storing d, { s with table := [], locked := true })
      | ds => some (.sending (ds.map (·.2)) env.n, { s with table := [], locked := true })
  | .storing d =>
    match env.store d.info with
    | .ok () => some (.sending [] env.n, { s with log := d :: s.log })
    | .err _ => some (.failed [], { s with log := d :: s.log, locked := false })
    | .panic => some (.panicked [] [], { s with log := d :: s.log, locked := false, poisoned := true })
  | .sending (d :: ds) k =>
    if s.hasRoom env then some (.sending ds k, { s with queue := s.queue ++ [.dump d] }) else none
  | .sending [] (k + 1) =>
    if s.hasRoom env then some (.sending [] k, { s with queue := s.queue ++ [.stop] }) else none
  | .sending [] 0 => some (.idle, { s with locked := false })
  | .dumping d =>
    match env.store d.info with
    | .ok () => some (.idle, { s with log := d :: s.log })
    | .err _ => some (.failed [], { s with log := d :: s.log })
    | .panic => some (.panicked [] [], { s with log := d :: s.log })
  | .ended => none
  | .failed _ => none
  | .panicked _ _ => none

/-- Who moves. -/
inductive Action where
  /-- the main thread sends an input (lines 492-501) -/
  | send
  /-- the main thread joins the next worker (lines 503-507) -/
  | join
  /-- a worker moves -/
  | worker (i : Nat)
  deriving DecidableEq

/-- One step.  Once the main thread has panicked (`join().unwrap()` on a worker that panicked) the process is over. -/
def act (env : Env) (a : Action) (s : State) : Option State :=
  if s.crashed then none
  else match a with
    | .send =>
      match s.toSend with
      | [] => none
      | f :: fs => if s.hasRoom env then some { s with queue := s.queue ++ [.get f], toSend := fs } else none
    | .join =>
      if s.toSend ≠ [] then none
      else match s.ws[s.joined]? with
        | some .ended => some { s with joined := s.joined + 1 }
        | some (.failed _) => some { s with joined := s.joined + 1 }
        | some (.panicked _ _) => some { s with crashed := true }
        | _ => none
    | .worker i =>
      match s.ws[i]? with
      | none => none
      | some w => (work env s i w).map fun r => { r.2 with ws := s.ws.set i r.1 }

/-- A sequence of steps. -/
def run (env : Env) : List Action → State → Option State
  | [], s => some s
  | a :: as, s => (act env a s).bind (run env as)

/-- The states a run can be in. -/
inductive Reachable (env : Env) : State → Prop where
  | init : Reachable env (init env)
  | step {s s' : State} (a : Action) : Reachable env s → act env a s = some s' → Reachable env s'

/-- `several_files` has returned (it returns `Ok`: line 509). -/
def State.Returned (env : Env) (s : State) : Prop := s.crashed = false ∧ s.toSend = [] ∧ s.joined = env.n

end Threads
end DumpSyms
