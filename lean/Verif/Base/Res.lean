/-!
# Results, strings and 32-bit arithmetic

Common vocabulary of the model.  Nothing here models a particular function of /repo.
-/
namespace DumpSyms

/-- Strings are lists of Unicode scalar values. -/
abbrev Str := List Char

/-- Outcome of a Rust computation: a value, an `Err` (with its message), or a panic. -/
inductive Res (α : Type) where
  | ok (a : α)
  | err (msg : Str)
  | panic
  deriving Repr, DecidableEq

namespace Res

/-- Sequencing: Rust's `?` for errors, unwinding for panics. -/
def bind {α β : Type} : Res α → (α → Res β) → Res β
  | ok a, f => f a
  | err m, _ => err m
  | panic, _ => panic

instance : Monad Res where
  pure := ok
  bind := bind

@[simp] theorem bind_ok {α β : Type} (a : α) (f : α → Res β) : (Res.ok a >>= f) = f a := rfl
@[simp] theorem bind_err {α β : Type} (m : Str) (f : α → Res β) : (Res.err m >>= f) = Res.err m := rfl
@[simp] theorem bind_panic {α β : Type} (f : α → Res β) : ((Res.panic : Res α) >>= f) = Res.panic := rfl
/-- Apply a function to the value. -/
def map {α β : Type} (f : α → β) : Res α → Res β
  | .ok a => .ok (f a)
  | .err m => .err m
  | .panic => .panic

@[simp] theorem map_ok {α β : Type} (f : α → β) (a : α) : (Res.ok a).map f = .ok (f a) := rfl
@[simp] theorem map_err {α β : Type} (f : α → β) (m : Str) : (Res.err m : Res α).map f = .err m := rfl
@[simp] theorem map_panic {α β : Type} (f : α → β) : (Res.panic : Res α).map f = .panic := rfl
@[simp] theorem pure_eq {α : Type} (a : α) : (pure a : Res α) = Res.ok a := rfl

end Res

/-- 2^32, the modulus of Rust's `u32`. -/
def M32 : Nat := 4294967296

/-- `x as u32` for an unsigned `x`. -/
def u32 (n : Nat) : Nat := n % M32

/-- `a + b` on `u32` in a release build (wraps; a debug build panics exactly when `a + b ≥ 2^32`). -/
def wadd (a b : Nat) : Nat := (a + b) % M32

/-- `a - b` on `u32` in a release build (wraps; a debug build panics exactly when `a < b`). -/
def wsub (a b : Nat) : Nat := (a + M32 - b) % M32

/-- `u32::checked_add`. -/
def checkedAdd (a b : Nat) : Option Nat := if a + b < M32 then some (a + b) else none

/-- `u32::checked_sub`. -/
def checkedSub (a b : Nat) : Option Nat := if b ≤ a then some (a - b) else none

theorem u32_lt (n : Nat) : u32 n < M32 := Nat.mod_lt _ (by decide)
theorem u32_of_lt {n : Nat} (h : n < M32) : u32 n = n := Nat.mod_eq_of_lt h
theorem wadd_lt (a b : Nat) : wadd a b < M32 := Nat.mod_lt _ (by decide)
theorem wadd_of_lt {a b : Nat} (h : a + b < M32) : wadd a b = a + b := Nat.mod_eq_of_lt h
theorem wsub_of_le {a b : Nat} (hb : b ≤ a) (ha : a < M32) : wsub a b = a - b := by
  unfold wsub
  have : a + M32 - b = (a - b) + M32 := by omega
  rw [this, Nat.add_mod_right, Nat.mod_eq_of_lt (by omega)]

/-- `str% "abc"` is the character list `['a', 'b', 'c']`. -/
macro "str%" s:str : term => do
  let cs := s.getString.toList
  let ts ← cs.mapM fun c => `($(Lean.Syntax.mkCharLit c))
  `(([$(ts.toArray),*] : Str))

end DumpSyms
