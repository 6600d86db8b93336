import Verif.Model.ObjectInfo
import Verif.Spec.Reader
/-!
# A module given several times
-/
namespace DumpSyms

/-- A symbol of a module that was given `k` times: a function is marked as one of several as soon as it was given twice. -/
def Symbol.times (k : Nat) (s : Symbol) : Symbol :=
  if s.isPublic = true ∨ k ≤ 1 then s else { s with isMultiple := true }

/-- The unwind records of a module that was given `k` times (each time on lines of their own). -/
def stackTimes (k : Nat) (s : Str) : Str :=
  (List.replicate (k - 1) (if s = [] ∨ s.getLast? = some '\n' then s else s ++ ['\n'])).flatten ++ s

/-- A module that was given `k` times: the functions are marked, the INLINE_ORIGIN and the unwind records are there `k` times, the rest is as
in the module given once. -/
def ObjectInfo.times (k : Nat) (o : ObjectInfo) : ObjectInfo :=
  { o with
    symbols := o.symbols.map fun e => (e.1, e.2.times k)
    inlineOrigins := (List.replicate k o.inlineOrigins).flatten
    stack := stackTimes k o.stack }

/-- A record of a module that was given `k` times. -/
def Reader.RSym.times (k : Nat) (r : Reader.RSym) : Reader.RSym := if r.isPublic = true ∨ k ≤ 1 then r else { r with isMultiple := true }

end DumpSyms
