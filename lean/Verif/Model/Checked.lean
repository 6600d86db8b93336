import Verif.Model.ObjectInfo
/-!
# The collection and the merge in a build with overflow checks

`cargo test` and `cargo build` check every addition and subtraction of integers and panic when the result does not fit; the other files model
the release build, where they wrap.  The functions with such arithmetic in them, and those that call them, are modelled here again with the
checks.  (`call_depth + 1`, src/collector.rs:215, is left out as in `Model/Collector`; the sum in src/symbol.rs:172 panics in both builds when it
does not fit, by the index of the slice.)
-/
namespace DumpSyms

/-- `a + b` with a check, on values below `m`. -/
def cadd (m a b : Nat) : Res Nat := if a + b < m then .ok (a + b) else .panic

/-- `a - b` with a check. -/
def csub (a b : Nat) : Res Nat := if b ≤ a then .ok (a - b) else .panic

namespace Checked
open Collector

/-- src/symbol.rs:34-37 `is_inside_symbol`. -/
def isInsideSymbol (syms : Symbols) (rva : Nat) : Res Bool :=
  match syms.lastBelow rva with
  | none => .ok false
  | some (_, last) => do
    let e ← cadd M32 last.rva last.len
    .ok (decide (rva < e))

/-- src/line.rs:238-245: the loop of `Vec::dedup_by`. -/
def joinFrom (cur : IRange) : List IRange → Res (List IRange)
  | [] => .ok [cur]
  | n :: rest =>
    if checkedAdd cur.rva cur.len = some n.rva then do
      let len ← cadd M32 cur.len n.len
      joinFrom { cur with len } rest
    else do
      let l ← joinFrom n rest
      .ok (cur :: l)

/-- src/line.rs:238-245 `ranges.dedup_by(..)`. -/
def joinRanges : List IRange → Res (List IRange)
  | [] => .ok []
  | r :: rest => joinFrom r rest

/-- src/line.rs:236-246: the loop over the inline sites. -/
def joinAll : List (InlineSite × List IRange) → Res (List (InlineSite × List IRange))
  | [] => .ok []
  | (site, ranges) :: rest => do
    let ranges ← joinRanges (isort (fun a b => decide (a.rva ≤ b.rva)) ranges)
    let rest ← joinAll rest
    .ok ((site, ranges) :: rest)

/-- src/line.rs:228-247 `Lines::ensure_order`. -/
def ensureOrder (s : Lines) : Res Lines := do
  let s := if s.areSorted then s
    else { s with lines := isort (fun a b => decide (a.rva ≤ b.rva)) s.lines, areSorted := true }
  let inlines ← joinAll s.inlines
  .ok { s with inlines }

/-- src/line.rs:207-221. -/
def setLens (symRva symLen : Nat) : List Line → Res (List Line)
  | [] => .ok []
  | [last] =>
    match checkedAdd symRva symLen with
    | some e =>
      if last.rva < e then do
        let len ← csub e last.rva
        .ok [{ last with len }]
      else .ok [last]
    | none => .ok [last]
  | a :: b :: rest => do
    let len ← csub b.rva a.rva
    let l ← setLens symRva symLen (b :: rest)
    .ok ({ a with len } :: l)

/-- src/line.rs:186-222 `Lines::compute_len`. -/
def computeLen (s : Lines) (symRva symLen : Nat) : Res Lines :=
  if s.lines = [] then .ok s
  else if s.areSorted then do
    let lines ← setLens symRva symLen s.lines
    .ok { s with lines }
  else .panic

/-- src/line.rs:181-184 `Lines::finalize`. -/
def finalize (s : Lines) (symRva symLen : Nat) : Res Lines := do
  let s ← ensureOrder s
  computeLen s symRva symLen

/-- src/collector.rs:205,233: `line.address + line.size.unwrap_or(1)`. -/
def endAddr (l : LineInfo) : Res Nat := cadd M64 l.address (l.size.getD 1)

/-- src/collector.rs:304-315: the call recording an inline range. -/
def inlineOp (depth lineNo fileId : Nat) (r : IRange64) : Res LOp := do
  let len ← csub r.stop r.start
  .ok (.inl { originId := r.origin, depth, callLine := lineNo, callFile := fileId } { rva := u32 r.start, len := u32 len })

/-- src/collector.rs:285-326: the inner loop. -/
def walkLine (depth lineNo fileId lineEnd : Nat) : List IRange64 → Nat → Option (Nat × Nat) → Res WalkOut
  | [], cur, prev =>
    if cur < lineEnd then
      let (ops, prev) := selfLine lineNo fileId cur [] prev
      .ok { cur := lineEnd, rest := [], prev, ops }
    else .ok { cur, rest := [], prev, ops := [] }
  | r :: rest, cur, prev =>
    if cur < lineEnd then
      let (ops, prev) := selfLine lineNo fileId cur (r :: rest) prev
      if r.start < lineEnd then do
        let op ← inlineOp depth lineNo fileId r
        let out ← walkLine depth lineNo fileId lineEnd rest r.stop none
        .ok { out with ops := ops ++ op :: out.ops }
      else .ok { cur := lineEnd, rest := r :: rest, prev, ops }
    else .ok { cur, rest := r :: rest, prev, ops := [] }

/-- src/collector.rs:231-339: the outer loop. -/
def walkLines (env : SrcEnv) (comp : ByteSlice) (depth : Nat) :
    List LineInfo → Nat → List IRange64 → Option (Nat × Nat) → SourceFiles → Res (List LOp × SourceFiles)
  | [], _, _, _, src => .ok ([], src)
  | l :: ls, skipTo, inl, prev, src =>
    if l.address < skipTo then walkLines env comp depth ls skipTo inl prev src
    else do
      let lineEnd ← endAddr l
      let (fakeId, src) ← src.getId env comp l.file
      let (fileId, src) ← src.getTrueId fakeId
      let out ← walkLine depth (u32 l.line) fileId lineEnd inl l.address prev
      let (ops, src) ← walkLines env comp depth ls out.cur out.rest out.prev src
      .ok (out.ops ++ ops, src)

/-- src/collector.rs:203-207: the ranges of one inlinee. -/
def inlineeRanges (origin : Nat) : List LineInfo → Res (List IRange64)
  | [] => .ok []
  | l :: ls => do
    let stop ← endAddr l
    let rest ← inlineeRanges origin ls
    .ok ({ start := l.address, stop, origin } :: rest)

mutual

/-- src/collector.rs:165-340 `collect_function_with_inlines_recursive`. -/
def collectRec (env : CEnv) (depth : Nat) (f : Func) (src : SourceFiles) (org : InlineOrigins) :
    Res (List LOp × SourceFiles × InlineOrigins) :=
  match f with
  | .mk _ _ _ comp lines inlinees => do
    let (ranges, ops1, src, org) ← collectInlinees env depth inlinees src org
    let (ops2, src) ← walkLines env.src comp depth lines 0 (env.us ranges) none src
    .ok (ops1 ++ ops2, src, org)
  termination_by structural f

/-- src/collector.rs:196-217: the loop over the inlinees. -/
def collectInlinees (env : CEnv) (depth : Nat) (fs : List Func) (src : SourceFiles) (org : InlineOrigins) :
    Res (List IRange64 × List LOp × SourceFiles × InlineOrigins) :=
  match fs with
  | [] => .ok ([], [], src, org)
  | f :: fs =>
    if f.lines = [] then collectInlinees env depth fs src org
    else do
      let (id, org) := InlineOrigins.getId env.dm org f.name
      let own ← inlineeRanges id f.lines
      let (ops1, src, org) ← collectRec env (depth + 1) f src org
      let (ranges, ops2, src, org) ← collectInlinees env depth fs src org
      .ok (own ++ ranges, ops1 ++ ops2, src, org)
  termination_by structural fs

end

/-- src/collector.rs:109-119: the calls made on `lines` for one function. -/
def functionOps (env : CEnv) (inlines : Bool) (f : Func) (src : SourceFiles) (org : InlineOrigins) :
    Res (List LOp × SourceFiles × InlineOrigins) :=
  if inlines then collectRec env 0 f src org
  else do
    let (ops, src) ← collectWithoutInlines env.src f src
    .ok (ops, src, org)

/-- src/collector.rs:90-137 `collect_function`. -/
def collectFunction (env : CEnv) (inlines : Bool) (f : Func) (st : State) : Res State :=
  if f.address = 0 then .ok st
  else
    match existingFunc st.syms (u32 f.address) with
    | some sym => .ok { st with syms := st.syms.insert (u32 f.address) { sym with isMultiple := true } }
    | none => do
      let (ops, src, org) ← functionOps env inlines f st.src st.org
      let lines ← finalize (Lines.run ops) (u32 f.address) (u32 f.size)
      .ok { syms := st.syms.insert (u32 f.address) {
              name := demangle env f.name
              isPublic := false
              isMultiple := false
              isSynthetic := false
              rva := u32 f.address
              len := u32 f.size
              parameterSize := 0
              source := lines }
            src, org }

/-- src/collector.rs:342-360 `collect_functions`. -/
def collectFunctions (env : CEnv) (inlines : Bool) : List (Option Func) → State → Res State
  | [], st => .ok st
  | none :: fs, st => collectFunctions env inlines fs st
  | some f :: fs, st => do
    let st ← collectFunction env inlines f st
    collectFunctions env inlines fs st

/-- src/collector.rs:365-419: one round of the loop of `collect_publics`. -/
def collectPublic (env : CEnv) (platform : Platform) (p : Public) (syms : Symbols) : Res Symbols := do
  let inside ← isInsideSymbol syms (u32 p.address)
  if inside then .ok syms
  else if p.skipped then .ok syms
  else do
    let w ← winName platform p.name
    .ok (putPublic env w p syms)

/-- src/collector.rs:363-421 `collect_publics`. -/
def collectPublics (env : CEnv) (platform : Platform) : List Public → Symbols → Res Symbols
  | [], syms => .ok syms
  | p :: ps, syms => do
    let syms ← collectPublic env platform p syms
    collectPublics env platform ps syms

/-- src/collector.rs:437-462: one round of the loop of `collect_placeholder_functions` (whose own subtraction is a `checked_sub`). -/
def collectPlaceholder (moduleName : Str) (e : ExcEntry) (syms : Symbols) : Res Symbols :=
  match checkedSub e.stop e.begin with
  | none => .ok syms
  | some size => do
    let inside ← isInsideSymbol syms e.begin
    if inside then .ok syms
    else .ok (syms.orInsert e.begin (placeholder moduleName e size))

/-- src/collector.rs:426-463 `collect_placeholder_functions`. -/
def collectPlaceholders (moduleName : Str) : List ExcEntry → Symbols → Res Symbols
  | [], syms => .ok syms
  | e :: es, syms => do
    let syms ← collectPlaceholder moduleName e syms
    collectPlaceholders moduleName es syms

/-- src/symbol.rs:133-160 `append_dummy_symbol_pe_pdb`. -/
def appendDummy (syms : Symbols) (name : Str) : Res Symbols :=
  match syms.getLast? with
  | none => .ok syms
  | some (_, last) => do
    let rva ← if last.len = 0 then cadd M32 last.rva 1 else cadd M32 last.rva last.len
    .ok (syms.orInsert rva {
      name := if name = [] then str% "<unknown>" else str% "<unknown in " ++ name ++ str% ">"
      isPublic := true
      isMultiple := false
      isSynthetic := true
      rva := rva
      len := 0
      parameterSize := 0
      source := Lines.new })

/-- src/symbol.rs:98-131 `add_executable_section_symbols`. -/
def addExecutableSectionSymbols (syms : Symbols) (name : Str) : ObjKind → Res Symbols
  | .elf sections => .ok (syms.addSections name sections)
  | .pe => appendDummy syms name
  | .pdb => appendDummy syms name
  | .other => .ok syms

/-- src/object_info.rs:140-147: placeholder functions, for PE files with exception data. -/
def withPlaceholders (main : ObjInput) (mainFileName : Str) (peFileName : Option Str) (syms : Symbols) : Res Symbols :=
  if main.format = .pe then
    match main.exceptions with
    | some es => collectPlaceholders (peFileName.getD mainFileName) es syms
    | none => .ok syms
  else .ok syms

/-- src/object_info.rs:151-155: collect the public symbols of the embedded debug data. -/
def withMini (env : CEnv) (platform : Platform) (main : ObjInput) (syms : Symbols) : Res Symbols := do
  let ps ← ObjectInfo.miniPublics main
  match ps with
  | some ps => collectPublics env platform ps syms
  | none => .ok syms

/-- src/object_info.rs:138-162: the collection. -/
def collect (env : CEnv) (inlines : Bool) (platform : Platform) (main : ObjInput) (mainFileName : Str)
    (peFileName : Option Str) (fs : List (Option Func)) : Res State := do
  let st ← collectFunctions env inlines fs State.new
  let syms ← withPlaceholders main mainFileName peFileName st.syms
  let syms ← collectPublics env platform main.publics syms
  let syms ← withMini env platform main syms
  let syms ← addExecutableSectionSymbols syms mainFileName main.kind
  .ok { st with syms }

/-- src/object_info.rs:104-183 `ObjectInfo::from_object`. -/
def fromObject (env : CEnv) (inlines : Bool) (platform : Platform) (main : ObjInput) (mainFileName : Str)
    (pe : Option ObjInput) (peFileName : Option Str) : Res ObjectInfo :=
  match main.functions with
  | .error e => .err e
  | .ok fs => do
    let st ← collect env inlines platform main mainFileName peFileName fs
    .ok {
      symbols := st.syms
      files := st.src.getMapping
      inlineOrigins := st.org.getList
      fileName := ObjectInfo.fileNameOnly (ObjectInfo.moduleName main mainFileName)
      cpu := main.arch
      debugId := main.debugId
      codeId := ((pe.bind (·.codeId)).or main.codeId).map fun c => c.map asciiUpper
      peName := peFileName
      stack := getStackInfo main pe
      binType := if main.hasDebugInfo then .debugInfo else .stripped
      platform }

/-- src/inline_origins.rs:60-80 `merge_inline_origins`. -/
def mergeOrigins (left right : List Str) : Res (List Str × List Nat) :=
  if right = [] then .ok (left, [])
  else if left = [] then .ok (right, List.range (u32 right.length))
  else do
    let offset := u32 left.length
    let stop ← cadd M32 offset (u32 right.length)
    .ok (left ++ right, (List.range (stop - offset)).map fun i => offset + i)

/-- src/object_info.rs:234-260: a PUBLIC of the smaller input. -/
def mergePublic (left : Symbols) (addr : Nat) (sym : Symbol) : Res Symbols := do
  let inside ← isInsideSymbol left addr
  if inside then .ok left
  else match left.get? addr with
    | some e =>
      if sym.isSynthetic then .ok left
      else if e.isSynthetic then .ok (left.insert addr sym)
      else if e.name ≠ sym.name then .ok (left.insert addr { e with isMultiple := true })
      else .ok left
    | none => .ok (left.insert addr sym)

/-- src/object_info.rs:233-281: the loop over the symbols of the smaller input. -/
def mergeSyms (fileRemap : Option (List Nat)) (originRemap : List Nat) : List (Nat × Symbol) → Symbols → Res Symbols
  | [], left => .ok left
  | (addr, sym) :: rest, left =>
    if sym.isPublic then do
      let left ← mergePublic left addr sym
      mergeSyms fileRemap originRemap rest left
    else do
      let left ← ObjectInfo.mergeFunc fileRemap originRemap left addr sym
      mergeSyms fileRemap originRemap rest left

/-- src/object_info.rs:217-291: merge `right` into the larger `left`. -/
def mergeInto (order : List (Str × Nat) → List (Str × Nat)) (left right : ObjectInfo) : Res ObjectInfo := do
  let (files, fileRemap) ← left.files.merge order right.files
  let (origins, originRemap) ← mergeOrigins left.inlineOrigins right.inlineOrigins
  let symbols ← mergeSyms fileRemap originRemap right.symbols left.symbols
  .ok { left with
    symbols
    files
    inlineOrigins := origins
    stack := ObjectInfo.mergeStack left.stack right.stack
    codeId := left.codeId.or right.codeId
    fileName := if right.binType = .stripped then right.fileName else left.fileName }

/-- src/object_info.rs:202-292 `ObjectInfo::merge`. -/
def merge (order : List (Str × Nat) → List (Str × Nat)) (l r : ObjectInfo) : Res ObjectInfo :=
  if l.debugId ≠ r.debugId then
    .err (str% "The files don't have the same debug id: " ++ l.debugId ++ str% " and " ++ r.debugId)
  else mergeInto order (ObjectInfo.bySize l r).1 (ObjectInfo.bySize l r).2

end Checked
end DumpSyms
