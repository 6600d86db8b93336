import Verif.Model.ObjectInfo
import Verif.Spec.Reader
/-!
# Sizes of the debug information of a function and of what is written for it
-/
namespace DumpSyms

namespace Func

mutual
/-- The line entries of a function and of everything inlined into it. -/
def entries : Func → Nat
  | .mk _ _ _ _ lines inlinees => lines.length + entriesAll inlinees
  termination_by structural f => f
/-- The line entries of some functions and of everything inlined into them. -/
def entriesAll : List Func → Nat
  | [] => 0
  | f :: fs => f.entries + entriesAll fs
  termination_by structural fs => fs
end

/-- The line entries of what is inlined into a function, at any depth. -/
def inlined (f : Func) : Nat := entriesAll f.inlinees

mutual
/-- The calls that were inlined into a function, at any depth. -/
def calls : Func → Nat
  | .mk _ _ _ _ _ inlinees => callsAll inlinees
  termination_by structural f => f
/-- Some functions and the calls that were inlined into them. -/
def callsAll : List Func → Nat
  | [] => 0
  | f :: fs => 1 + f.calls + callsAll fs
  termination_by structural fs => fs
end

end Func

/-- How much is in a symbol file, by kind of record: FUNC and PUBLIC records, FILE records, INLINE_ORIGIN records, line records, INLINE records
and the ranges in them. -/
structure Size where
  symbols : Nat
  files : Nat
  origins : Nat
  lines : Nat
  inlines : Nat
  ranges : Nat
  deriving DecidableEq, Repr

namespace Size

/-- No more of anything. -/
structure Le (a b : Size) : Prop where
  symbols : a.symbols ≤ b.symbols
  files : a.files ≤ b.files
  origins : a.origins ≤ b.origins
  lines : a.lines ≤ b.lines
  inlines : a.inlines ≤ b.inlines
  ranges : a.ranges ≤ b.ranges

def zero : Size := ⟨0, 0, 0, 0, 0, 0⟩

def add (a b : Size) : Size :=
  ⟨a.symbols + b.symbols, a.files + b.files, a.origins + b.origins, a.lines + b.lines, a.inlines + b.inlines, a.ranges + b.ranges⟩

/-- All together. -/
def total (l : List Size) : Size := l.foldr add zero

/-- What is in a symbol file that was read. -/
def ofFile (f : Reader.SymFile) : Size where
  symbols := f.symbols.length
  files := f.files.length
  origins := f.origins.length
  lines := (f.symbols.map fun s => s.lines.length).sum
  inlines := (f.symbols.map fun s => s.inlines.length).sum
  ranges := (f.symbols.map fun s => (s.inlines.map fun e => e.2.length).sum).sum

/-- What a function can add to a symbol file: its own line entries and those of what is inlined into it give one line record each, a call
that was inlined can cut a line of its caller in two, and it has a range for each of its entries. -/
def ofFunc (f : Func) : Size where
  symbols := 1
  files := f.entries
  origins := f.calls
  lines := f.lines.length + 2 * f.inlined
  inlines := f.inlined
  ranges := f.inlined

/-- Something that can add a FUNC or PUBLIC record without any lines. -/
def symbol : Size := { zero with symbols := 1 }

/-- What is in a function's records. -/
def ofLines (l : Lines) : Size :=
  { zero with symbols := 1, lines := l.lines.length, inlines := l.inlines.length, ranges := (l.inlines.map fun e => e.2.length).sum }

/-- What is in the records of all symbols. -/
def ofSymbols (syms : Symbols) : Size := total (syms.map fun e => ofLines e.2.source)

/-- What is in an object. -/
def ofObject (o : ObjectInfo) : Size :=
  { ofSymbols o.symbols with files := o.files.getMapping.length, origins := o.inlineOrigins.length }

/-- The sections that may get a symbol of their own; for PE and PDB, the one symbol after the last. -/
def sectionCount : ObjKind → Nat
  | .elf l => (l.filter (·.executable)).length
  | .pe => 1
  | .pdb => 1
  | .other => 0

/-- The entries of the exception table. -/
def exceptionCount (main : ObjInput) : Nat := if main.format = .pe then (main.exceptions.getD []).length else 0

/-- What an object file can lead to: its functions, the entries of its exception table, its public symbols and those of its embedded debug data,
and its sections. -/
def ofInput (main : ObjInput) (fs : List (Option Func)) (embedded : List Collector.Public) : Size :=
  (total ((fs.filterMap fun f => f).map ofFunc)).add
    { zero with symbols := exceptionCount main + main.publics.length + embedded.length + sectionCount main.kind }

end Size
end DumpSyms
