import Verif.Model.ObjectInfo
import Verif.Spec.Symbols
/-!
# Specification vocabulary for dumped and merged objects
-/
namespace DumpSyms

/-- Every id used by a line or INLINE record of a symbol is below the number of FILE, resp. INLINE_ORIGIN, records. -/
def Symbol.IdsDefined (nf no : Nat) (s : Symbol) : Prop :=
  (∀ l ∈ s.source.lines, l.fileId < nf) ∧ ∀ e ∈ s.source.inlines, e.1.callFile < nf ∧ e.1.originId < no

/-- Every id used in the object is the number of a FILE or INLINE_ORIGIN record of it. -/
def ObjectInfo.IdsDefined (o : ObjectInfo) : Prop :=
  ∀ e ∈ o.symbols, e.2.IdsDefined o.files.getMapping.length o.inlineOrigins.length

/-- The order in which a hash table is iterated: any permutation. -/
def IterOrder (order : List (Str × Nat) → List (Str × Nat)) : Prop := ∀ l, (order l).Perm l

/-- Objects merged in some order: a binary tree.  Each merge has its own hash iteration order. -/
inductive MTree where
  | leaf (o : ObjectInfo)
  | node (order : List (Str × Nat) → List (Str × Nat)) (l r : MTree)

namespace MTree

/-- Do all the merges. -/
def eval : MTree → Res ObjectInfo
  | leaf o => .ok o
  | node order l r => do
    let a ← l.eval
    let b ← r.eval
    ObjectInfo.merge order a b

/-- The objects merged. -/
def leaves : MTree → List ObjectInfo
  | leaf o => [o]
  | node _ l r => l.leaves ++ r.leaves

/-- Every hash iteration order is a permutation. -/
def OrdersOk : MTree → Prop
  | leaf _ => True
  | node order l r => IterOrder order ∧ l.OrdersOk ∧ r.OrdersOk

/-- Number of FILE records of all objects together. -/
def fileCount (t : MTree) : Nat := (t.leaves.map fun o => o.files.getMapping.length).sum

/-- Number of INLINE_ORIGIN records of all objects together. -/
def originCount (t : MTree) : Nat := (t.leaves.map fun o => o.inlineOrigins.length).sum

end MTree

/-- A line record as a user reads it: address, length, line number and the path in the FILE record. -/
structure ReadLine where
  rva : Nat
  len : Nat
  num : Nat
  path : Option Str
  deriving DecidableEq, Repr

/-- An INLINE record as a user reads it: nesting depth, line of the call, path of the calling file, name of the inlined
function, and address ranges. -/
structure ReadInline where
  depth : Nat
  callLine : Nat
  callPath : Option Str
  name : Option Str
  ranges : List IRange
  deriving DecidableEq, Repr

/-- The line records of a symbol, with file ids looked up in the FILE records. -/
def Symbol.readLines (files : List Str) (s : Symbol) : List ReadLine :=
  s.source.lines.map fun l => ⟨l.rva, l.len, l.num, files[l.fileId]?⟩

/-- The INLINE records of a symbol, with ids looked up in the FILE and INLINE_ORIGIN records. -/
def Symbol.readInlines (files origins : List Str) (s : Symbol) : List ReadInline :=
  s.source.inlines.map fun e => ⟨e.1.depth, e.1.callLine, files[e.1.callFile]?, origins[e.1.originId]?, e.2⟩

end DumpSyms
