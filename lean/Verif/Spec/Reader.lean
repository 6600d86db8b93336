import Verif.Base.Num
import Verif.Spec.Object
/-!
# A reader of Breakpad symbol files

Written from the description of the format, not from the printing code: a symbol file is a list of lines; the first word of
a line says which record it is, except for line records, which start with a number; INLINE and line records belong to the
FUNC record before them.
-/
namespace DumpSyms
namespace Reader

/-- The rest of `s` after the prefix `p`. -/
def dropPre : Str → Str → Option Str
  | [], s => some s
  | _ :: _, [] => none
  | p :: ps, c :: cs => if p = c then dropPre ps cs else none

/-- The text before the first space and the text after it. -/
def readField : Str → Option (Str × Str)
  | [] => none
  | c :: cs => if c = ' ' then some ([], cs) else (readField cs).map fun x => (c :: x.1, x.2)

/-- The words of a line, separated by single spaces. -/
def words (s : Str) : List Str := splitOn (fun c => decide (c = ' ')) s

/-- The lines of a text in which each line ends with a newline. -/
def textLines (s : Str) : Option (List Str) :=
  let ps := splitOn (fun c => decide (c = '\n')) s
  if ps.getLast? = some [] then some ps.dropLast else none

/-- How the operating systems are called in symbol files of this program. -/
def osName : Platform → Str
  | .linux => str% "Linux"
  | .mac => str% "Mac"
  | .win => str% "windows"

/-- A record of a symbol file. -/
inductive Rec where
  | module (os arch id name : Str)
  | info (text : Str)
  | file (num : Nat) (name : Str)
  | origin (num : Nat) (name : Str)
  | func (multiple : Bool) (rva len param : Nat) (name : Str)
  | pub (multiple : Bool) (rva param : Nat) (name : Str)
  | inline (site : InlineSite) (ranges : List IRange)
  | line (l : Line)
  | stack (text : Str)
  deriving DecidableEq, Repr

/-- `MODULE operatingsystem architecture id name` -/
def readModule (s : Str) : Option Rec := do
  let (os, s) ← readField s
  let (arch, s) ← readField s
  let (id, name) ← readField s
  some (.module os arch id name)

/-- `number name` -/
def readNumbered (s : Str) : Option (Nat × Str) := do
  let (n, name) ← readField s
  let n ← readNat 10 n
  some (n, name)

/-- The optional `m`. -/
def readMultiple (s : Str) : Bool × Str :=
  match dropPre (str% "m ") s with
  | some s => (true, s)
  | none => (false, s)

/-- `FUNC [m] address size parameter_size name` -/
def readFunc (s : Str) : Option Rec := do
  let (a, r) ← readField (readMultiple s).2
  let (n, r) ← readField r
  let (p, name) ← readField r
  let a ← readNat 16 a
  let n ← readNat 16 n
  let p ← readNat 16 p
  some (.func (readMultiple s).1 a n p name)

/-- `PUBLIC [m] address parameter_size name` -/
def readPublic (s : Str) : Option Rec := do
  let (a, r) ← readField (readMultiple s).2
  let (p, name) ← readField r
  let a ← readNat 16 a
  let p ← readNat 16 p
  some (.pub (readMultiple s).1 a p name)

/-- `[address size]*` -/
def readRanges : List Str → Option (List IRange)
  | [] => some []
  | [_] => none
  | a :: n :: ws => do
    let a ← readNat 16 a
    let n ← readNat 16 n
    let rs ← readRanges ws
    some (⟨a, n⟩ :: rs)

/-- `INLINE inline_nest_level call_site_line call_site_file_num origin_num [address size]+` -/
def readInline (s : Str) : Option Rec :=
  match words s with
  | d :: l :: f :: o :: ws => do
    let d ← readNat 10 d
    let l ← readNat 10 l
    let f ← readNat 10 f
    let o ← readNat 10 o
    let rs ← readRanges ws
    if rs = [] then none else some (.inline ⟨o, d, l, f⟩ rs)
  | _ => none

/-- `address size line filenum` -/
def readLine (s : Str) : Option Rec :=
  match words s with
  | [a, n, l, f] => do
    let a ← readNat 16 a
    let n ← readNat 16 n
    let l ← readNat 10 l
    let f ← readNat 10 f
    some (.line ⟨a, n, l, f⟩)
  | _ => none

/-- One line of a symbol file. -/
def readRec (s : Str) : Option Rec :=
  match dropPre (str% "MODULE ") s with
  | some r => readModule r
  | none => match dropPre (str% "INFO ") s with
  | some r => some (.info r)
  | none => match dropPre (str% "FILE ") s with
  | some r => (readNumbered r).map fun x => .file x.1 x.2
  | none => match dropPre (str% "INLINE_ORIGIN ") s with
  | some r => (readNumbered r).map fun x => .origin x.1 x.2
  | none => match dropPre (str% "INLINE ") s with
  | some r => readInline r
  | none => match dropPre (str% "FUNC ") s with
  | some r => readFunc r
  | none => match dropPre (str% "PUBLIC ") s with
  | some r => readPublic r
  | none => match dropPre (str% "STACK ") s with
  | some r => some (.stack r)
  | none => readLine s

/-- A symbol with its records, as read. -/
structure RSym where
  isPublic : Bool
  isMultiple : Bool
  rva : Nat
  len : Nat
  parameterSize : Nat
  name : Str
  inlines : List (InlineSite × List IRange)
  lines : List Line
  deriving DecidableEq, Repr

/-- The contents of a symbol file. -/
structure SymFile where
  modules : List (Str × Str × Str × Str)
  infos : List Str
  files : List (Nat × Str)
  origins : List (Nat × Str)
  symbols : List RSym
  stack : List Str
  deriving DecidableEq, Repr

/-- The contents read so far (from the end), and the records that belong to the next FUNC record met. -/
structure Building where
  file : SymFile
  inlines : List (InlineSite × List IRange)
  lines : List Line
  deriving DecidableEq, Repr

/-- No record waits for its function. -/
def Building.settled (b : Building) : Option SymFile := if b.inlines = [] ∧ b.lines = [] then some b.file else none

/-- Add a record in front.  INLINE records come before line records. -/
def addRec (r : Rec) (b : Building) : Option Building :=
  match r with
  | .line l => if b.inlines = [] then some { b with lines := l :: b.lines } else none
  | .inline s rs => some { b with inlines := (s, rs) :: b.inlines }
  | .func m a n p name =>
    some ⟨{ b.file with symbols := ⟨false, m, a, n, p, name, b.inlines, b.lines⟩ :: b.file.symbols }, [], []⟩
  | .pub m a p name => b.settled.map fun f => ⟨{ f with symbols := ⟨true, m, a, 0, p, name, [], []⟩ :: f.symbols }, [], []⟩
  | .module os arch id name => b.settled.map fun f => ⟨{ f with modules := (os, arch, id, name) :: f.modules }, [], []⟩
  | .info t => b.settled.map fun f => ⟨{ f with infos := t :: f.infos }, [], []⟩
  | .file n name => b.settled.map fun f => ⟨{ f with files := (n, name) :: f.files }, [], []⟩
  | .origin n name => b.settled.map fun f => ⟨{ f with origins := (n, name) :: f.origins }, [], []⟩
  | .stack t => b.settled.map fun f => ⟨{ f with stack := t :: f.stack }, [], []⟩

/-- Put the records together, from the last to the first. -/
def build : List Rec → Building → Option Building
  | [], b => some b
  | r :: rs, b => (build rs b).bind (addRec r)

/-- All the lines of a symbol file. -/
def readRecs : List Str → Option (List Rec)
  | [] => some []
  | l :: ls => do
    let r ← readRec l
    let rs ← readRecs ls
    some (r :: rs)

/-- The order of two call sites that start at the same address and have the same depth: by the function called, then the line, then the file. -/
def Before (a b : InlineSite) : Prop :=
  a.originId < b.originId ∨ (a.originId = b.originId ∧ (a.callLine < b.callLine ∨ (a.callLine = b.callLine ∧ a.callFile < b.callFile)))

/-- What is printed for a function with these call sites and lines: one INLINE record per call site, with all its ranges, in ascending
order of (start of the first range, nesting depth), then the line records in order. -/
def FuncBody (inlines : List (InlineSite × List IRange)) (lines : List Line) (text : Str) : Prop :=
  ∃ (sites : List (InlineSite × List IRange)) (ls : List Str), textLines text = some ls ∧
    readRecs ls = some ((sites.map fun e => .inline e.1 e.2) ++ lines.map .line) ∧
    sites.Perm inlines ∧ (sites.map (·.1)).Nodup ∧
    sites.Pairwise fun a b => ∃ ra rb, a.2.head? = some ra ∧ b.2.head? = some rb ∧
      (ra.rva < rb.rva ∨ (ra.rva = rb.rva ∧ (a.1.depth < b.1.depth ∨ (a.1.depth = b.1.depth ∧ Before a.1 b.1))))

/-- Read a symbol file. -/
def readSymFile (s : Str) : Option SymFile := do
  let ls ← textLines s
  let rs ← readRecs ls
  let b ← build rs ⟨⟨[], [], [], [], [], []⟩, [], []⟩
  b.settled

/-- The code id and the file name in a leading `INFO CODE_ID` record. -/
def SymFile.codeId (f : SymFile) : Option (Str × Option Str) := do
  let t ← f.infos.head?
  let t ← dropPre (str% "CODE_ID ") t
  match readField t with
  | some (id, pe) => some (id, some pe)
  | none => some (t, none)

/-- The other INFO records. -/
def SymFile.extra (f : SymFile) : List Str := if f.codeId.isSome then f.infos.drop 1 else f.infos

end Reader

/-- What is required of an object for its symbol file to be readable: names have no newline, fields no space, the unwind
text consists of STACK records, and extra information does not pretend to be a code id. -/
structure ObjectInfo.Readable (o : ObjectInfo) (extra : List Str) : Prop where
  cpu : ' ' ∉ o.cpu ∧ '\n' ∉ o.cpu
  debugId : ' ' ∉ o.debugId ∧ '\n' ∉ o.debugId
  fileName : '\n' ∉ o.fileName
  files : ∀ f ∈ o.files.getMapping, '\n' ∉ f
  origins : ∀ n ∈ o.inlineOrigins, '\n' ∉ n
  names : ∀ e ∈ o.symbols, '\n' ∉ e.2.name
  codeId : ∀ c, o.codeId = some c → c ≠ [] ∧ ∀ x ∈ c, isWhitespace x = false
  peName : ∀ p, o.peName = some p → '\n' ∉ p ∧ ∃ x, p.getLast? = some x ∧ isWhitespace x = false
  extraLines : ∀ l ∈ extra, '\n' ∉ l
  extraCode : o.codeId = none → ∀ l, extra.head? = some l → ¬ str% "CODE_ID " <+: l
  stack : ∃ ls : List Str, o.stack = ls.flatMap (fun l => str% "STACK " ++ l ++ str% "\n") ∧ ∀ l ∈ ls, '\n' ∉ l

/-- A symbol read back is the one that was printed (INLINE records may come in another order; the length of a PUBLIC is not
printed). -/
structure Reader.RSym.Reads (r : Reader.RSym) (s : Symbol) : Prop where
  isPublic : r.isPublic = s.isPublic
  isMultiple : r.isMultiple = s.isMultiple
  rva : r.rva = s.rva
  len : s.isPublic = false → r.len = s.len
  parameterSize : r.parameterSize = s.parameterSize
  name : r.name = s.name
  lines : r.lines = s.source.lines
  inlines : r.inlines.Perm s.source.inlines

end DumpSyms
