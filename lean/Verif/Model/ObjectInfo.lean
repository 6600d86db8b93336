import Verif.Model.Collector
/-!
# Model of src/object_info.rs

The object file (`symbolic::debuginfo::Object`) is an input, seen through the accessors the code uses.  Not modelled:
`AsciiCfiWriter` (its output is an input), logging.
-/
namespace DumpSyms

/-- src/object_info.rs:22-26 `enum Type`. -/
inductive BinType where
  | stripped
  | debugInfo
  deriving DecidableEq, Repr

/-- src/object_info.rs:28-41 `struct ObjectInfo`. -/
structure ObjectInfo where
  symbols : Symbols
  files : SourceMap
  inlineOrigins : List Str
  fileName : Str
  cpu : Str
  debugId : Str
  codeId : Option Str
  peName : Option Str
  stack : Str
  binType : BinType
  platform : Platform
  deriving DecidableEq, Repr

/-- `Object::file_format`/the variants of `Object` that the code distinguishes. -/
inductive Format where
  | elf
  | machO
  | pe
  | pdb
  | other
  deriving DecidableEq, Repr

/-- What is read from an object file. -/
structure ObjInput where
  format : Format
  debugId : Str
  codeId : Option Str
  arch : Str
  hasDebugInfo : Bool
  /-- `elf.name()` / `macho.name()` (`none` for other formats). -/
  name : Option Str
  /-- The functions of the debug session (`none`: unreadable), or the error of `debug_session()`. -/
  functions : Except Str (List (Option Func))
  /-- Readable entries of `pe.exception_data()`. -/
  exceptions : Option (List Collector.ExcEntry)
  publics : List Collector.Public
  /-- What `AsciiCfiWriter` writes for the object (also when it stops with an error); `none`: no unwind information. -/
  unwind : Option Str
  /-- What goblin says about the raw data. -/
  kind : ObjKind
  /-- The raw data. -/
  data : List Nat := []
  /-- `lzma_rs::xz_decompress`. -/
  unxz : List Nat → Option (List Nat) := fun _ => none
  /-- The public symbols of the object that `Object::parse` makes of unpacked data. -/
  parsePublics : List Nat → Option (List Collector.Public) := fun _ => none

/-- src/object_info.rs:86-101 `get_stack_info` (its first argument is always given). -/
def getStackInfo (main : ObjInput) (pe : Option ObjInput) : Str :=
  match pe.bind (·.unwind) with
  | some t => t
  | none => main.unwind.getD []

/-- Upper-casing of `code_id` (src/object_info.rs:130; ASCII letters only: a code id is a hexadecimal text). -/
def asciiUpper (c : Char) : Char := if 'a' ≤ c ∧ c ≤ 'z' then Char.ofNat (c.toNat - 32) else c

namespace ObjectInfo

/-- src/object_info.rs:185-196 `ObjectInfo::canonicalize`. -/
def canonicalize (os : TargetOs) (platform : Platform) (o : ObjInput) : Bool :=
  if o.format = .pe ∧ o.hasDebugInfo then false else platform.isTarget os

/-- `s.rsplit('/').next().unwrap_or(s)` (src/object_info.rs:198-200 `file_name_only`): what follows the last `/`. -/
def fileNameOnly (s : Str) : Str := (s.reverse.takeWhile (· != '/')).reverse

/-- src/object_info.rs:164-168: the name put in the MODULE record before `file_name_only`. -/
def moduleName (main : ObjInput) (mainFileName : Str) : Str :=
  if main.format = .elf ∨ main.format = .machO then main.name.getD mainFileName else mainFileName

/-- src/object_info.rs:140-147: placeholder functions, for PE files with exception data. -/
def withPlaceholders (main : ObjInput) (mainFileName : Str) (peFileName : Option Str) (syms : Symbols) : Symbols :=
  if main.format = .pe then
    match main.exceptions with
    | some es => Collector.collectPlaceholders (peFileName.getD mainFileName) es syms
    | none => syms
  else syms

/-- src/object_info.rs:151-152: the public symbols of the embedded debug data, if there is any that can be read. -/
def miniPublics (main : ObjInput) : Res (Option (List Collector.Public)) := do
  let buf ← getCompressedMinidebuginfo main.unxz main.data main.kind
  .ok (buf.bind main.parsePublics)

/-- src/object_info.rs:151-155: collect the public symbols of the embedded debug data. -/
def withMini (env : CEnv) (platform : Platform) (main : ObjInput) (syms : Symbols) : Res Symbols := do
  let ps ← miniPublics main
  match ps with
  | some ps => Collector.collectPublics env platform ps syms
  | none => .ok syms

/-- src/object_info.rs:138-162: the collection. -/
def collect (env : CEnv) (inlines : Bool) (platform : Platform) (main : ObjInput) (mainFileName : Str)
    (peFileName : Option Str) (fs : List (Option Func)) : Res Collector.State := do
  let st ← Collector.collectFunctions env inlines fs Collector.State.new
  let syms ← Collector.collectPublics env platform main.publics (withPlaceholders main mainFileName peFileName st.syms)
  let syms ← withMini env platform main syms
  .ok { st with syms := syms.addExecutableSectionSymbols mainFileName main.kind }

/-- src/object_info.rs:104-183 `ObjectInfo::from_object`.  `env.src.canonicalize` stands for
`Self::canonicalize(&platform, main_object)`. -/
def fromObject (env : CEnv) (inlines : Bool) (platform : Platform) (main : ObjInput) (mainFileName : Str)
    (pe : Option ObjInput) (peFileName : Option Str) : Res ObjectInfo :=
  match main.functions with
  | .error e => .err e
  | .ok fs => do
    let st ← collect env inlines platform main mainFileName peFileName fs
    .ok {
      symbols := st.syms
      files := st.src.getMapping
      inlineOrigins := st.org.getList
      fileName := fileNameOnly (moduleName main mainFileName)
      cpu := main.arch
      debugId := main.debugId
      codeId := ((pe.bind (·.codeId)).or main.codeId).map fun c => c.map asciiUpper
      peName := peFileName
      stack := getStackInfo main pe
      binType := if main.hasDebugInfo then .debugInfo else .stripped
      platform }

/-- src/object_info.rs:51-55: the `INFO CODE_ID` line. -/
def codeIdText (o : ObjectInfo) : Str :=
  match o.codeId with
  | none => []
  | some c => trim (str% "INFO CODE_ID " ++ c ++ str% " " ++ o.peName.getD []) ++ str% "\n"

/-- src/object_info.rs:57-61: the extra `INFO` lines. -/
def extraText (extra : Option (List Str)) : Str :=
  (extra.getD []).flatMap fun l => str% "INFO " ++ l ++ str% "\n"

/-- `(n, x)` for the elements of a list, starting at `n` (`iter().enumerate()`). -/
def enumFrom {α : Type} (n : Nat) : List α → List (Nat × α)
  | [] => []
  | a :: l => (n, a) :: enumFrom (n + 1) l

/-- src/object_info.rs:63-65: the FILE lines. -/
def filesText (files : List Str) : Str :=
  (enumFrom 0 files).flatMap fun e => str% "FILE " ++ dec e.1 ++ str% " " ++ e.2 ++ str% "\n"

/-- src/object_info.rs:68-72: blank origin names are replaced. -/
def originText (name : Str) : Str := if trim name = [] then str% "<name omitted>" else name

/-- src/object_info.rs:67-74: the INLINE_ORIGIN lines. -/
def originsText (names : List Str) : Str :=
  (enumFrom 0 names).flatMap fun e => str% "INLINE_ORIGIN " ++ dec e.1 ++ str% " " ++ originText e.2 ++ str% "\n"

/-- src/object_info.rs:76-78: the symbols, in map order. -/
def symbolsText : List (Nat × Symbol) → Res Str
  | [] => .ok []
  | (_, s) :: rest => do
    let a ← s.display
    let b ← symbolsText rest
    .ok (a ++ b)

/-- src/object_info.rs:45-49: the MODULE line. -/
def moduleText (o : ObjectInfo) : Str :=
  str% "MODULE " ++ o.platform.display ++ str% " " ++ o.cpu ++ str% " " ++ o.debugId ++ str% " " ++ o.fileName ++ str% "\n"

/-- src/object_info.rs:43-84 `Display for ObjectInfo`; `extra` is the global `EXTRA_INFO`. -/
def display (extra : Option (List Str)) (o : ObjectInfo) : Res Str := do
  let syms ← symbolsText o.symbols
  .ok (o.moduleText ++ o.codeIdText ++ extraText extra ++ filesText o.files.getMapping ++
    originsText o.inlineOrigins ++ syms ++ o.stack)

/-- src/object_info.rs:217-225: merging the unwind texts (`l` of the larger input). -/
def mergeStack (l r : Str) : Str :=
  if l = [] then r
  else if r = [] then l
  else (if l.getLast? = some '\n' then l else l ++ ['\n']) ++ r

/-- src/object_info.rs:234-260: a PUBLIC of the smaller input. -/
def mergePublic (left : Symbols) (addr : Nat) (sym : Symbol) : Symbols :=
  if left.isInsideSymbol addr then left
  else match left.get? addr with
    | some e =>
      if sym.isSynthetic then left
      else if e.isSynthetic then left.insert addr sym
      else if e.name ≠ sym.name then left.insert addr { e with isMultiple := true }
      else left
    | none => left.insert addr sym

/-- src/object_info.rs:269-270 and 276-277: renumber the lines and inlines of a symbol. -/
def remapSym (fileRemap : Option (List Nat)) (originRemap : List Nat) (sym : Symbol) : Res Symbol := do
  let sym ← sym.remapLines fileRemap
  sym.remapInlines fileRemap originRemap

/-- src/object_info.rs:262-280: a FUNC of the smaller input. -/
def mergeFunc (fileRemap : Option (List Nat)) (originRemap : List Nat) (left : Symbols) (addr : Nat) (sym : Symbol) :
    Res Symbols :=
  match left.get? addr with
  | some a =>
    if a.isPublic then do
      let sym ← remapSym fileRemap originRemap sym
      .ok (left.insert addr { sym with isMultiple := true })
    else .ok (left.insert addr { a with isMultiple := true })
  | none => do
    let sym ← remapSym fileRemap originRemap sym
    .ok (left.insert addr sym)

/-- src/object_info.rs:233-281: the loop over the symbols of the smaller input. -/
def mergeSyms (fileRemap : Option (List Nat)) (originRemap : List Nat) : List (Nat × Symbol) → Symbols → Res Symbols
  | [], left => .ok left
  | (addr, sym) :: rest, left =>
    if sym.isPublic then mergeSyms fileRemap originRemap rest (mergePublic left addr sym)
    else do
      let left ← mergeFunc fileRemap originRemap left addr sym
      mergeSyms fileRemap originRemap rest left

/-- src/object_info.rs:210-215: (larger, smaller); the second argument counts as larger when equal. -/
def bySize (l r : ObjectInfo) : ObjectInfo × ObjectInfo :=
  if l.symbols.length > r.symbols.length then (l, r) else (r, l)

/-- src/object_info.rs:217-291: merge `right` into the larger `left`. -/
def mergeInto (order : List (Str × Nat) → List (Str × Nat)) (left right : ObjectInfo) : Res ObjectInfo := do
  let (files, fileRemap) ← left.files.merge order right.files
  let (origins, originRemap) := InlineOrigins.merge left.inlineOrigins right.inlineOrigins
  let symbols ← mergeSyms fileRemap originRemap right.symbols left.symbols
  .ok { left with
    symbols
    files
    inlineOrigins := origins
    stack := mergeStack left.stack right.stack
    codeId := left.codeId.or right.codeId
    fileName := if right.binType = .stripped then right.fileName else left.fileName }

/-- src/object_info.rs:202-292 `ObjectInfo::merge`.  `order` is the iteration order of the hash table of the smaller
input's paths. -/
def merge (order : List (Str × Nat) → List (Str × Nat)) (l r : ObjectInfo) : Res ObjectInfo :=
  if l.debugId ≠ r.debugId then
    .err (str% "The files don't have the same debug id: " ++ l.debugId ++ str% " and " ++ r.debugId)
  else mergeInto order (bySize l r).1 (bySize l r).2

/-- src/object_info.rs:307-309 `has_stack`. -/
def hasStack (o : ObjectInfo) : Bool := !o.stack.isEmpty

end ObjectInfo
end DumpSyms
