import Verif.Model.Source
import Verif.Model.Symbol
import Verif.Model.InlineOrigins
/-!
# Model of src/collector.rs

The debug information (`symbolic::debuginfo`) is an input: a list of function trees, a list of public symbols and a list
of exception entries.  The demangler, the language detection and the unstable sort are parameters.
-/
namespace DumpSyms

/-- 2^64, the modulus of Rust's `u64`. -/
def M64 : Nat := 18446744073709551616

/-- `a + b` on `u64` in a release build (wraps). -/
def wadd64 (a b : Nat) : Nat := (a + b) % M64

/-- `a - b` on `u64` in a release build (wraps). -/
def wsub64 (a b : Nat) : Nat := (a + M64 - b) % M64

/-- `symbolic::debuginfo::LineInfo`. -/
structure LineInfo where
  address : Nat
  size : Option Nat
  file : FileInfo
  line : Nat
  deriving DecidableEq, Repr

/-- src/collector.rs:205,233: `line.address + line.size.unwrap_or(1)`. -/
def LineInfo.endAddr (l : LineInfo) : Nat := wadd64 l.address (l.size.getD 1)

/-- `symbolic::debuginfo::Function` (fields used by the code). -/
inductive Func where
  | mk (address size : Nat) (name : Name) (comp : ByteSlice) (lines : List LineInfo) (inlinees : List Func)
  deriving Repr

namespace Func
def address : Func → Nat | mk a _ _ _ _ _ => a
def size : Func → Nat | mk _ s _ _ _ _ => s
def name : Func → Name | mk _ _ n _ _ _ => n
def comp : Func → ByteSlice | mk _ _ _ c _ _ => c
def lines : Func → List LineInfo | mk _ _ _ _ l _ => l
def inlinees : Func → List Func | mk _ _ _ _ _ i => i
end Func

/-- An inline range (src/collector.rs:206): start, end, origin id. -/
structure IRange64 where
  start : Nat
  stop : Nat
  origin : Nat
  deriving DecidableEq, Repr

/-- What the collector depends on. -/
structure CEnv where
  src : SrcEnv
  /-- `Name::demangle`. -/
  dm : Demangler
  /-- `Name::detect_language` of a mangled name of unknown language. -/
  detect : Str → Language
  /-- `sort_unstable_by_key(|(range, _)| range.start)` (src/collector.rs:220). -/
  us : List IRange64 → List IRange64

namespace Collector

/-- src/collector.rs:56-70 `Collector::demangle`. -/
def demangle (env : CEnv) (name : Name) : Str :=
  let name := Common.fixSymbolName name
  if name.lang = .c then name.text
  else match env.dm name with
    | some d => d
    | none => name.text

/-- src/collector.rs:72-88 `Collector::demangle_str`. -/
def demangleStr (env : CEnv) (name : Str) : Str :=
  let lang := env.detect name
  if lang = .unknown then name
  else
    let n := Common.fixSymbolName { text := name, mangled := true, lang }
    match env.dm n with
    | some d => d
    | none => n.text

/-- src/collector.rs:145-161: the loop of `collect_function_without_inlines`.  `lines` is only written to, so the
function is modelled by the calls it makes on it. -/
def linesNoInlines (env : SrcEnv) (comp : ByteSlice) :
    List LineInfo → Option (Nat × Nat) → SourceFiles → Res (List LOp × SourceFiles)
  | [], _, src => .ok ([], src)
  | l :: ls, prev, src =>
    if l.line = 0 then linesNoInlines env comp ls prev src
    else do
      let (fileId, src) ← src.getId env comp l.file
      if prev ≠ some (l.line, fileId) then do
        let (tid, src) ← src.getTrueId fileId
        let (ops, src) ← linesNoInlines env comp ls (some (l.line, fileId)) src
        .ok (.line (u32 l.address) (u32 l.line) tid :: ops, src)
      else linesNoInlines env comp ls prev src

/-- src/collector.rs:139-162 `collect_function_without_inlines`. -/
def collectWithoutInlines (env : SrcEnv) (f : Func) (src : SourceFiles) : Res (List LOp × SourceFiles) :=
  linesNoInlines env f.comp f.lines none src

/-- State of the inner loop of src/collector.rs:285-326 when it ends. -/
structure WalkOut where
  cur : Nat
  rest : List IRange64
  prev : Option (Nat × Nat)
  ops : List LOp
  deriving DecidableEq, Repr

/-- src/collector.rs:286-294: the self line to emit at `cur`, if any, and the new `prev_line_info`. -/
def selfLine (lineNo fileId cur : Nat) (inl : List IRange64) (prev : Option (Nat × Nat)) :
    List LOp × Option (Nat × Nat) :=
  if (match inl with | [] => true | r :: _ => decide (r.start > cur)) then
    if prev ≠ some (lineNo, fileId) then ([.line (u32 cur) lineNo fileId], some (lineNo, fileId)) else ([], prev)
  else ([], prev)

/-- src/collector.rs:304-315: the call recording an inline range. -/
def inlineOp (depth lineNo fileId : Nat) (r : IRange64) : LOp :=
  .inl { originId := r.origin, depth, callLine := lineNo, callFile := fileId }
    { rva := u32 r.start, len := u32 (wsub64 r.stop r.start) }

/-- src/collector.rs:285-326: the inner loop, for one line record ending at `lineEnd`.  `inl` is `next_inline` followed
by what `inline_iter` still holds. -/
def walkLine (depth lineNo fileId lineEnd : Nat) : List IRange64 → Nat → Option (Nat × Nat) → WalkOut
  | [], cur, prev =>
    if cur < lineEnd then
      let (ops, prev) := selfLine lineNo fileId cur [] prev
      { cur := lineEnd, rest := [], prev, ops }
    else { cur, rest := [], prev, ops := [] }
  | r :: rest, cur, prev =>
    if cur < lineEnd then
      let (ops, prev) := selfLine lineNo fileId cur (r :: rest) prev
      if r.start < lineEnd then
        let out := walkLine depth lineNo fileId lineEnd rest r.stop none
        { out with ops := ops ++ inlineOp depth lineNo fileId r :: out.ops }
      else { cur := lineEnd, rest := r :: rest, prev, ops }
    else { cur, rest := r :: rest, prev, ops := [] }

/-- src/collector.rs:231-339: the outer loop over the line records.  `skipTo` is the `current_address` of the previous
round: src/collector.rs:336-338 skips the records that start before it (`0` at the beginning, where nothing is
skipped). -/
def walkLines (env : SrcEnv) (comp : ByteSlice) (depth : Nat) :
    List LineInfo → Nat → List IRange64 → Option (Nat × Nat) → SourceFiles → Res (List LOp × SourceFiles)
  | [], _, _, _, src => .ok ([], src)
  | l :: ls, skipTo, inl, prev, src =>
    if l.address < skipTo then walkLines env comp depth ls skipTo inl prev src
    else do
      let (fakeId, src) ← src.getId env comp l.file
      let (fileId, src) ← src.getTrueId fakeId
      let out := walkLine depth (u32 l.line) fileId l.endAddr inl l.address prev
      let (ops, src) ← walkLines env comp depth ls out.cur out.rest out.prev src
      .ok (out.ops ++ ops, src)

/-- src/collector.rs:203-207: the ranges of one inlinee. -/
def inlineeRanges (f : Func) (origin : Nat) : List IRange64 :=
  f.lines.map fun l => { start := l.address, stop := l.endAddr, origin }

mutual

/-- src/collector.rs:165-340 `collect_function_with_inlines_recursive`.  Simplification: `call_depth` does not wrap
(the nesting is less than 2^32 deep); stack overflow is not modelled. -/
def collectRec (env : CEnv) (depth : Nat) (f : Func) (src : SourceFiles) (org : InlineOrigins) :
    Res (List LOp × SourceFiles × InlineOrigins) :=
  match f with
  | .mk _ _ _ comp lines inlinees => do
    let (ranges, ops1, src, org) ← collectInlinees env depth inlinees src org
    let (ops2, src) ← walkLines env.src comp depth lines 0 (env.us ranges) none src
    .ok (ops1 ++ ops2, src, org)
  termination_by structural f

/-- src/collector.rs:196-217: the loop over the inlinees; also returns `inline_ranges`. -/
def collectInlinees (env : CEnv) (depth : Nat) (fs : List Func) (src : SourceFiles) (org : InlineOrigins) :
    Res (List IRange64 × List LOp × SourceFiles × InlineOrigins) :=
  match fs with
  | [] => .ok ([], [], src, org)
  | f :: fs =>
    if f.lines = [] then collectInlinees env depth fs src org
    else do
      let (id, org) := InlineOrigins.getId env.dm org f.name
      let (ops1, src, org) ← collectRec env (depth + 1) f src org
      let (ranges, ops2, src, org) ← collectInlinees env depth fs src org
      .ok (inlineeRanges f id ++ ranges, ops1 ++ ops2, src, org)
  termination_by structural fs

end

/-- The state of a collection: src/collector.rs:34-38 (the symbols) and the tables passed along. -/
structure State where
  syms : Symbols
  src : SourceFiles
  org : InlineOrigins
  deriving DecidableEq, Repr

/-- src/object_info.rs:113-125: the state a dump starts with. -/
def State.new : State := { syms := [], src := SourceFiles.new, org := InlineOrigins.empty }

/-- src/collector.rs:109-119: the calls made on `lines` for one function. -/
def functionOps (env : CEnv) (inlines : Bool) (f : Func) (src : SourceFiles) (org : InlineOrigins) :
    Res (List LOp × SourceFiles × InlineOrigins) :=
  if inlines then collectRec env 0 f src org
  else do
    let (ops, src) ← collectWithoutInlines env.src f src
    .ok (ops, src, org)

/-- src/collector.rs:100-105: the symbol already at an address, if it is not a public one. -/
def existingFunc (syms : Symbols) (a : Nat) : Option Symbol :=
  match syms.get? a with
  | some sym => if sym.isPublic then none else some sym
  | none => none

/-- src/collector.rs:90-137 `collect_function`. -/
def collectFunction (env : CEnv) (inlines : Bool) (f : Func) (st : State) : Res State :=
  if f.address = 0 then .ok st
  else
    match existingFunc st.syms (u32 f.address) with
    | some sym => .ok { st with syms := st.syms.insert (u32 f.address) { sym with isMultiple := true } }
    | none => do
      let (ops, src, org) ← functionOps env inlines f st.src st.org
      let lines ← (Lines.run ops).finalize (u32 f.address) (u32 f.size)
      .ok { syms := st.syms.insert (u32 f.address) {
              name := demangle env f.name
              isPublic := false
              isMultiple := false
              isSynthetic := false
              rva := u32 f.address
              len := u32 f.size
              parameterSize := 0
              source := lines }
            src, org }

/-- src/collector.rs:342-360 `collect_functions`: `none` stands for a function that could not be read (logged and
skipped). -/
def collectFunctions (env : CEnv) (inlines : Bool) : List (Option Func) → State → Res State
  | [], st => .ok st
  | none :: fs, st => collectFunctions env inlines fs st
  | some f :: fs, st => do
    let st ← collectFunction env inlines f st
    collectFunctions env inlines fs st

/-- `symbolic::debuginfo::Symbol`: a public symbol. -/
structure Public where
  name : Option Str
  address : Nat
  size : Nat
  deriving DecidableEq, Repr

/-- src/collector.rs:375-379: the parsed decorated name, on Windows only. -/
def winName (platform : Platform) (name : Option Str) : Res (Option WinName) :=
  if platform = .win then
    match name with
    | some n => do
      let w ← WinName.parseUnknown n
      .ok (some w)
    | none => .ok none
  else .ok none

/-- src/collector.rs:382-398: the entry exists. -/
def publicOccupied (env : CEnv) (w : Option WinName) (sym : Symbol) : Symbol :=
  if sym.isPublic then { sym with isMultiple := true }
  else match w with
    | none => sym
    | some w =>
      let sym := if '(' ∉ sym.name then { sym with name := demangleStr env w.name } else sym
      match w.paramSize with
      | some size => { sym with parameterSize := size }
      | none => sym

/-- src/collector.rs:399-418: the symbol of a vacant entry. -/
def publicVacant (env : CEnv) (w : Option WinName) (p : Public) : Symbol where
  name := match w, p.name with
    | some w, _ => demangleStr env w.name
    | none, some name => demangleStr env name
    | none, none => str% "<name omitted>"
  isPublic := true
  isMultiple := false
  isSynthetic := false
  rva := u32 p.address
  len := u32 p.size
  parameterSize := (w.bind (·.paramSize)).getD 0
  source := Lines.default

/-- src/collector.rs:369-373: the symbol is skipped because of its name. -/
def Public.skipped (p : Public) : Bool :=
  match p.name with
  | some n => shouldSkipSymbol n
  | none => false

/-- src/collector.rs:381-418: add the symbol, whose decorated name is already parsed. -/
def putPublic (env : CEnv) (w : Option WinName) (p : Public) (syms : Symbols) : Symbols :=
  match syms.get? (u32 p.address) with
  | some sym => syms.insert (u32 p.address) (publicOccupied env w sym)
  | none => syms.insert (u32 p.address) (publicVacant env w p)

/-- src/collector.rs:365-419: one round of the loop of `collect_publics`. -/
def collectPublic (env : CEnv) (platform : Platform) (p : Public) (syms : Symbols) : Res Symbols :=
  if syms.isInsideSymbol (u32 p.address) then .ok syms
  else if p.skipped then .ok syms
  else do
    let w ← winName platform p.name
    .ok (putPublic env w p syms)

/-- src/collector.rs:363-421 `collect_publics`. -/
def collectPublics (env : CEnv) (platform : Platform) : List Public → Symbols → Res Symbols
  | [], syms => .ok syms
  | p :: ps, syms => do
    let syms ← collectPublic env platform p syms
    collectPublics env platform ps syms

/-- An entry of the exception table (src/collector.rs:437): begin and end addresses. -/
structure ExcEntry where
  begin : Nat
  stop : Nat
  deriving DecidableEq, Repr

/-- src/collector.rs:431-435: the name of placeholder functions. -/
def placeholderName (moduleName : Str) : Str :=
  if moduleName = [] then str% "<unknown>" else str% "<unknown in " ++ moduleName ++ str% ">"

/-- src/collector.rs:450-459: the placeholder symbol. -/
def placeholder (moduleName : Str) (e : ExcEntry) (size : Nat) : Symbol where
  name := placeholderName moduleName
  isPublic := false
  isMultiple := false
  isSynthetic := true
  rva := e.begin
  len := size
  parameterSize := 0
  source := Lines.default

/-- src/collector.rs:437-462: one round of the loop of `collect_placeholder_functions`. -/
def collectPlaceholder (moduleName : Str) (e : ExcEntry) (syms : Symbols) : Symbols :=
  match checkedSub e.stop e.begin with
  | none => syms
  | some size =>
    if syms.isInsideSymbol e.begin then syms
    else syms.orInsert e.begin (placeholder moduleName e size)

/-- src/collector.rs:426-463 `collect_placeholder_functions` (unreadable entries are already filtered out). -/
def collectPlaceholders (moduleName : Str) : List ExcEntry → Symbols → Symbols
  | [], syms => syms
  | e :: es, syms => collectPlaceholders moduleName es (collectPlaceholder moduleName e syms)

end Collector
end DumpSyms
