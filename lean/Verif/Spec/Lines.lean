import Verif.Model.Line
/-!
# Specification vocabulary for line and inline records

What was fed to a `Lines` value, what addresses a range covers, and how a reader of the symbol file looks an
address up.  Nothing here depends on the code's helpers.
-/
namespace DumpSyms

/-- The (address, line number, file) triples among the insertions, in order. -/
def lineEntries (ops : List LOp) : List (Nat × Nat × Nat) :=
  ops.filterMap fun | .line r n f => some (r, n, f) | .inl _ _ => none

/-- The ranges inserted for one call site, in order. -/
def rangesOf (site : InlineSite) (ops : List LOp) : List IRange :=
  ops.filterMap fun | .line _ _ _ => none | .inl s r => if s = site then some r else none

/-- Triple carried by a line record. -/
def Line.triple (l : Line) : Nat × Nat × Nat := (l.rva, l.num, l.fileId)

/-- The address `a` lies in the half-open range `r`. -/
def IRange.Covers (r : IRange) (a : Nat) : Prop := r.rva ≤ a ∧ a < r.rva + r.len

/-- The address `a` lies in the half-open range of the line record `l`. -/
def Line.Covers (l : Line) (a : Nat) : Prop := l.rva ≤ a ∧ a < l.rva + l.len

/-- How a reader attributes an address: the line number and file id of the first line record covering it. -/
def lookupLine (ls : List Line) (a : Nat) : Option (Nat × Nat) :=
  (ls.find? fun l => decide (l.rva ≤ a ∧ a < l.rva + l.len)).map fun l => (l.num, l.fileId)

end DumpSyms
