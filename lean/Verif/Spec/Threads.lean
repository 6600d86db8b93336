import Verif.Model.Threads
/-!
# What is said about multi-file runs
-/
namespace DumpSyms
namespace Threads

/-- `o` was made by parsing the inputs `l`, the last of the list first, and merging each one into what there was. -/
inductive Made (env : Env) : List Nat → ObjectInfo → Prop where
  | one (f : Nat) (o : ObjectInfo) : env.parse f = .ok o → Made env [f] o
  | more (f : Nat) (l : List Nat) (o p c : ObjectInfo) : env.parse f = .ok o → Made env l p →
      ObjectInfo.merge (env.hash (f :: l)) o p = .ok c → Made env (f :: l) c

/-- `o` was made from the inputs `l`, each of them an input of the run and taken once. -/
def MadeOnce (env : Env) (l : List Nat) (o : ObjectInfo) : Prop := l.Nodup ∧ (∀ f ∈ l, f < env.files) ∧ Made env l o

/-- Input `f` parses to an object with debug id `k`. -/
def HasId (env : Env) (f : Nat) (k : Str) : Prop := ∃ o, env.parse f = .ok o ∧ o.debugId = k

/-- The results are iterated in some order, each of them once. -/
def Env.Ok (env : Env) : Prop := ∀ t, (env.order t).Perm t

/-- Nothing can move any more. -/
def Stuck (env : Env) (s : State) : Prop := ∀ a, act env a s = none

/-- The worker is writing or sending module `d`. -/
def W.Carries (d : Item) : W → Prop
  | .storing e => e = d
  | .sending es _ => d ∈ es
  | .dumping e => e = d
  | _ => False

/-- The module `d` is in the table of results, in the queue, with a worker, or handed to the writer. -/
def State.Module (s : State) (d : Item) : Prop :=
  (∃ k, (k, d) ∈ s.table) ∨ .dump d ∈ s.queue ∨ (∃ w ∈ s.ws, w.Carries d) ∨ d ∈ s.log

/-- Some module was handed to the writer or is about to be, or some worker was told to stop. -/
def State.Started (s : State) : Prop :=
  s.log ≠ [] ∨ (∃ d, .dump d ∈ s.queue) ∨ (∃ d, ∃ w ∈ s.ws, w.Carries d) ∨ .stop ∈ s.queue ∨ .ended ∈ s.ws

/-- Everything a run can do with its inputs succeeds. -/
structure Env.Smooth (env : Env) : Prop where
  parses : ∀ f, f < env.files → ∃ o, env.parse f = .ok o
  stores : ∀ l o, MadeOnce env l o → env.store o = .ok ()
  merges : ∀ f l o p, (f :: l).Nodup → (∀ g ∈ f :: l, g < env.files) → env.parse f = .ok o → Made env l p →
    o.debugId = p.debugId → ∃ c, ObjectInfo.merge (env.hash (f :: l)) o p = .ok c

/-- The run hangs in state `s`: nothing can move although the main thread has neither returned nor panicked. -/
def Hangs (env : Env) (s : State) : Prop := Reachable env s ∧ Stuck env s ∧ s.crashed = false ∧ ¬ s.Returned env

end Threads
end DumpSyms
