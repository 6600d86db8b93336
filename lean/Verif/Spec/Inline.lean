import Verif.Model.Collector
import Verif.Base.Lst
import Verif.Spec.Source
/-!
# Specification vocabulary for function trees

Which addresses a function covers, which source line an address belongs to, and through which calls it was inlined.
Only the shape of the debug information is used, nothing of the collector.
-/
namespace DumpSyms

/-- End of a line entry; entries without a size cover one byte. -/
def LineInfo.stop (l : LineInfo) : Nat := l.address + l.size.getD 1

/-- The address `a` lies in the line entry. -/
def LineInfo.Covers (l : LineInfo) (a : Nat) : Prop := l.address ≤ a ∧ a < l.stop

/-- The address `a` lies in some line entry of the function. -/
def Func.Covers (f : Func) (a : Nat) : Prop := ∃ l ∈ f.lines, l.Covers a

/-- `Innermost f a l c`: the line entry `l` (of a function with compilation directory `c`) is the entry of the innermost
function covering `a` in the tree `f`. -/
inductive Innermost : Func → Nat → LineInfo → ByteSlice → Prop where
  | self (f : Func) (a : Nat) (l : LineInfo) (hl : l ∈ f.lines) (ha : l.Covers a)
      (hn : ∀ g ∈ f.inlinees, ¬ g.Covers a) : Innermost f a l f.comp
  | inl (f g : Func) (a : Nat) (l : LineInfo) (c : ByteSlice) (hg : g ∈ f.inlinees) (ha : g.Covers a)
      (h : Innermost g a l c) : Innermost f a l c

/-- One inlined call: the name of the inlined function, the line entry of the caller containing the address, and the
caller's compilation directory. -/
structure CallStep where
  callee : Name
  callLine : LineInfo
  callerDir : ByteSlice

/-- `Chain f a cs`: the inlined calls that lead from `f` to the code at `a`, outermost first. -/
inductive Chain : Func → Nat → List CallStep → Prop where
  | nil (f : Func) (a : Nat) (hn : ∀ g ∈ f.inlinees, ¬ g.Covers a) : Chain f a []
  | cons (f g : Func) (a : Nat) (l : LineInfo) (cs : List CallStep) (hl : l ∈ f.lines) (ha : l.Covers a)
      (hg : g ∈ f.inlinees) (hga : g.Covers a) (h : Chain g a cs) : Chain f a (⟨g.name, l, f.comp⟩ :: cs)

/-- A well-formed function tree: line entries are non-empty, sorted and disjoint and end below 2^32; the inlinees of a
function cover disjoint sets of addresses; every line entry of an inlinee lies within one line entry of its caller; and so
on for the inlinees. -/
inductive Func.WF : Func → Prop where
  | mk (f : Func)
      (pos : ∀ l ∈ f.lines, l.address < l.stop ∧ l.stop < M32)
      (sorted : f.lines.Pairwise fun l l' => l.stop ≤ l'.address)
      (disjoint : f.inlinees.Pairwise fun g g' => ∀ a, ¬ (g.Covers a ∧ g'.Covers a))
      (nested : ∀ g ∈ f.inlinees, ∀ l ∈ g.lines, ∃ l' ∈ f.lines, l'.address ≤ l.address ∧ l.stop ≤ l'.stop)
      (rec : ∀ g ∈ f.inlinees, Func.WF g) : Func.WF f

/-- Consecutive line entries of the function with the same line number and path leave no gap between them. -/
def Func.NoGap (env : SrcEnv) (f : Func) : Prop :=
  Adj (fun l l' => u32 l.line = u32 l'.line ∧
    (∃ p, env.Records f.comp l.file p ∧ env.Records f.comp l'.file p) → l.stop = l'.address) f.lines

/-- `NoGap` for all inlinees, at every depth. -/
inductive Func.InlineesNoGap (env : SrcEnv) : Func → Prop where
  | mk (f : Func) (h : ∀ g ∈ f.inlinees, g.NoGap env) (rec : ∀ g ∈ f.inlinees, Func.InlineesNoGap env g) :
      Func.InlineesNoGap env f

/-- `Q` holds of every file reference and `N` of every inlinee name of a function tree. -/
inductive Func.All (Q : ByteSlice → FileInfo → Prop) (N : Name → Prop) : Func → Prop where
  | mk (f : Func) (hl : ∀ l ∈ f.lines, Q f.comp l.file) (hn : ∀ g ∈ f.inlinees, N g.name)
      (hi : ∀ g ∈ f.inlinees, Func.All Q N g) : Func.All Q N f

/-- A reference the collector can handle: the memory shows its text, its path is in the universe `U`, and mapping the path does not
panic. -/
def RefOk (env : SrcEnv) (mem : Mem) (U : List Str) (c : ByteSlice) (f : FileInfo) : Prop :=
  Faithful mem c f ∧ ∃ p, env.Records c f p ∧ p ∈ U ∧ env.mapPanics p = false

/-- The functions reported at (32-bit) address `a`, in order. -/
def funcsAt (fs : List (Option Func)) (a : Nat) : List Func :=
  (fs.filterMap id).filter fun f => decide (f.address ≠ 0 ∧ u32 f.address = a)

/-- What `sort_unstable_by_key` guarantees: a permutation in order of the keys. -/
def SortsByStart (us : List IRange64 → List IRange64) : Prop :=
  ∀ l, (us l).Perm l ∧ (us l).Pairwise fun r r' => r.start ≤ r'.start

/-- What is required of the debug information: memory shows the texts referred to, mapping a path does not panic, there are at most 2^32 paths and
inlinee names, and the sort sorts. -/
structure InputOk (env : CEnv) (mem : Mem) (U : List Str) (V : List Name) (fs : List (Option Func)) : Prop where
  paths : U.length ≤ M32
  names : V.length ≤ M32
  sort : SortsByStart env.us
  funcs : ∀ f, some f ∈ fs → f.All (RefOk env.src mem U) (fun n => n ∈ V)

end DumpSyms
