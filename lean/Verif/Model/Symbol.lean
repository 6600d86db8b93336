import Verif.Model.Line
/-!
# Model of src/symbol.rs

The section headers of an ELF file are an input; so is xz decompression.
-/
namespace DumpSyms

/-- src/symbol.rs:15-25 `struct Symbol`. -/
structure Symbol where
  name : Str
  isPublic : Bool
  isMultiple : Bool
  isSynthetic : Bool
  rva : Nat
  len : Nat
  parameterSize : Nat
  source : Lines
  deriving DecidableEq, Repr

/-- src/symbol.rs:27 `type Symbols = BTreeMap<u32, Symbol>`. -/
abbrev Symbols := SMap Nat Symbol

namespace Symbols

/-- src/symbol.rs:35 `self.range((Included(0), Excluded(rva))).next_back()`. -/
def lastBelow (syms : Symbols) (rva : Nat) : Option (Nat × Symbol) :=
  (syms.filter fun e => decide (e.1 < rva)).getLast?

/-- src/symbol.rs:34-37 `is_inside_symbol` (the addition wraps in a release build). -/
def isInsideSymbol (syms : Symbols) (rva : Nat) : Bool :=
  match syms.lastBelow rva with
  | some (_, last) => decide (rva < wadd last.rva last.len)
  | none => false

/-- `syms.entry(k).or_insert(v)`. -/
def orInsert (syms : Symbols) (k : Nat) (v : Symbol) : Symbols :=
  match syms.get? k with
  | some _ => syms
  | none => syms.insert k v

end Symbols

namespace Symbol

/-- src/symbol.rs:46,55: the `m ` flag. -/
def mFlag (s : Symbol) : Str := if s.isMultiple then str% "m " else []

/-- src/symbol.rs:40-67 `Display for Symbol`. -/
def display (s : Symbol) : Res Str :=
  if s.isPublic then
    .ok (str% "PUBLIC " ++ s.mFlag ++ hex s.rva ++ str% " " ++ hex s.parameterSize ++ str% " " ++ s.name ++ str% "\n")
  else do
    let body ← s.source.display
    .ok (str% "FUNC " ++ s.mFlag ++ hex s.rva ++ str% " " ++ hex s.len ++ str% " " ++ hex s.parameterSize ++
      str% " " ++ s.name ++ str% "\n" ++ body)

/-- `table[id as usize]` (out of range: panic). -/
def index (table : List Nat) (id : Nat) : Res Nat :=
  match table[id]? with
  | some v => .ok v
  | none => .panic

/-- src/symbol.rs:72-74: the loop over the lines. -/
def remapLineList (table : List Nat) : List Line → Res (List Line)
  | [] => .ok []
  | l :: ls => do
    let f ← index table l.fileId
    let ls ← remapLineList table ls
    .ok ({ l with fileId := f } :: ls)

/-- src/symbol.rs:70-76 `Symbol::remap_lines`. -/
def remapLines (s : Symbol) (fileRemap : Option (List Nat)) : Res Symbol :=
  match fileRemap with
  | none => .ok s
  | some t => do
    let ls ← remapLineList t s.source.lines
    .ok { s with source := { s.source with lines := ls } }

/-- src/symbol.rs:86-92: one call site. -/
def remapSite (fileRemap : Option (List Nat)) (originRemap : List Nat) (site : InlineSite) : Res InlineSite := do
  let f ← match fileRemap with
    | none => Res.ok site.callFile
    | some t => index t site.callFile
  let o ← index originRemap site.originId
  .ok { site with callFile := f, originId := o }

/-- src/symbol.rs:84-94: mapping the entries and collecting them into a new map (the last of several entries with the
same key wins). -/
def remapInlineList (fileRemap : Option (List Nat)) (originRemap : List Nat) :
    List (InlineSite × List IRange) → SMap InlineSite (List IRange) → Res (SMap InlineSite (List IRange))
  | [], acc => .ok acc
  | (site, ranges) :: rest, acc => do
    let site' ← remapSite fileRemap originRemap site
    remapInlineList fileRemap originRemap rest (acc.insert site' ranges)

/-- src/symbol.rs:78-95 `Symbol::remap_inlines`. -/
def remapInlines (s : Symbol) (fileRemap : Option (List Nat)) (originRemap : List Nat) : Res Symbol := do
  let inl ← remapInlineList fileRemap originRemap s.source.inlines []
  .ok { s with source := { s.source with inlines := inl } }

end Symbol

/-- A section header as used by src/symbol.rs:106-122 and 168-174: name looked up in the string table, address, executable flag, place in
the file. -/
structure Section where
  name : Option Str
  addr : Nat
  executable : Bool
  offset : Nat := 0
  size : Nat := 0
  deriving DecidableEq, Repr

/-- What `goblin::Object::parse` says about the main object (src/symbol.rs:103-129). -/
inductive ObjKind where
  | elf (sections : List Section)
  | pe
  | pdb
  | other
  deriving DecidableEq, Repr

namespace Symbols

/-- src/symbol.rs:108-121: the symbol of one section. -/
def sectionSymbol (name : Str) (h : Section) : Symbol where
  name := str% "<" ++ h.name.getD (str% "unknown") ++ str% " ELF section in " ++
    (if name = [] then str% "unknown" else name) ++ str% ">"
  isPublic := true
  isMultiple := false
  isSynthetic := true
  rva := u32 h.addr
  len := 0
  parameterSize := 0
  source := Lines.new

/-- src/symbol.rs:106-123: the loop over the section headers. -/
def addSections (name : Str) : List Section → Symbols → Symbols
  | [], syms => syms
  | h :: hs, syms =>
    addSections name hs (if h.executable then syms.orInsert (u32 h.addr) (sectionSymbol name h) else syms)

/-- src/symbol.rs:133-160 `append_dummy_symbol_pe_pdb` (the additions wrap in a release build). -/
def appendDummy (syms : Symbols) (name : Str) : Symbols :=
  match syms.getLast? with
  | none => syms
  | some (_, last) =>
    let rva := if last.len = 0 then wadd last.rva 1 else wadd last.rva last.len
    syms.orInsert rva {
      name := if name = [] then str% "<unknown>" else str% "<unknown in " ++ name ++ str% ">"
      isPublic := true
      isMultiple := false
      isSynthetic := true
      rva := rva
      len := 0
      parameterSize := 0
      source := Lines.new }

/-- src/symbol.rs:98-131 `add_executable_section_symbols`. -/
def addExecutableSectionSymbols (syms : Symbols) (name : Str) : ObjKind → Symbols
  | .elf sections => addSections name sections syms
  | .pe => appendDummy syms name
  | .pdb => appendDummy syms name
  | .other => syms

end Symbols

/-- src/symbol.rs:168-178: the first section named `.gnu_debugdata`, unpacked.  `&data[start..(start + length)]` panics when the section
does not lie within the file (also if the sum overflows: then it is below `start`). -/
def miniDebugInfo (unxz : List Nat → Option (List Nat)) (data : List Nat) : List Section → Res (Option (List Nat))
  | [] => .ok none
  | h :: rest =>
    if h.name = some (str% ".gnu_debugdata") then
      if h.offset + h.size ≤ data.length then .ok (unxz ((data.drop h.offset).take h.size)) else .panic
    else miniDebugInfo unxz data rest

/-- src/symbol.rs:164-181 `get_compressed_minidebuginfo`. -/
def getCompressedMinidebuginfo (unxz : List Nat → Option (List Nat)) (data : List Nat) : ObjKind → Res (Option (List Nat))
  | .elf sections => miniDebugInfo unxz data sections
  | _ => .ok none

/-- src/symbol.rs:183-187 `struct ParsedWinFuncName`. -/
structure WinName where
  name : Str
  paramSize : Option Nat
  deriving DecidableEq, Repr

namespace WinName

/-- The value of a decimal digit. -/
def digit? (c : Char) : Option Nat := if '0' ≤ c ∧ c ≤ '9' then some (c.toNat - 48) else none

/-- Value of a string of decimal digits, most significant first. -/
def digitsVal : Nat → Str → Option Nat
  | acc, [] => some acc
  | acc, c :: cs => match digit? c with
    | some d => digitsVal (acc * 10 + d) cs
    | none => none

/-- Drop one leading `+`. -/
def dropPlus : Str → Str
  | '+' :: r => r
  | r => r

/-- `str::parse::<u32>()` of Rust (one leading `+` is accepted; at least one digit; value below 2^32). -/
def parseU32 (s : Str) : Option Nat :=
  let ds := dropPlus s
  if ds = [] then none
  else match digitsVal 0 ds with
    | some v => if v < M32 then some v else none
    | none => none

/-- `str::rsplit_once` with a non-empty pattern: split around its last occurrence. -/
def rsplitOnce (pat : Str) : Str → Option (Str × Str)
  | [] => none
  | c :: cs =>
    match rsplitOnce pat cs with
    | some (a, b) => some (c :: a, b)
    | none => if pat.isPrefixOf (c :: cs) then some ([], (c :: cs).drop pat.length) else none

/-- `str::split_at(1)` panics inside a multi-byte character. -/
def splitAtOne : Str → Res (Str × Str)
  | [] => .panic
  | c :: cs => if c.toNat < 128 then .ok ([c], cs) else .panic

/-- src/symbol.rs:190-195 `name_only`. -/
def nameOnly (name : Str) : WinName := { name, paramSize := none }

/-- src/symbol.rs:215-216 and 227-228: `rsplit_once` followed by parsing the second part. -/
def sizedSplit (pat s : Str) : Option (Str × Nat) :=
  match rsplitOnce pat s with
  | some (name, ps) => (parseU32 ps).map fun v => (name, v)
  | none => none

/-- src/symbol.rs:224-243: the second half of `parse_c_decorated`. -/
def parseOther (s : Str) : Res WinName :=
  if s = [] then .ok (nameOnly s)
  else do
    let (first, rest) ← splitAtOne s
    if first = ['@'] ∨ first = ['_'] then
      match sizedSplit ['@'] rest with
      | some (name, v) => .ok { name, paramSize := some v }
      | none => if first = ['_'] then .ok (nameOnly rest) else .ok (nameOnly s)
    else .ok (nameOnly s)

/-- src/symbol.rs:206-244 `parse_c_decorated`. -/
def parseCDecorated (s : Str) : Res WinName :=
  match sizedSplit ['@', '@'] s with
  | some (name, v) => .ok { name, paramSize := some v }
  | none => parseOther s

/-- src/symbol.rs:197-203 `parse_unknown`. -/
def parseUnknown (name : Str) : Res WinName :=
  if name.any (fun c => c == ':' || c == '(') then .ok (nameOnly name) else parseCDecorated name

end WinName

/-- src/symbol.rs:247-249 `is_constant_string`. -/
def isConstantString (name : Str) : Bool := (str% "??_C").isPrefixOf name

/-- src/symbol.rs:251-257 `is_constant_number`. -/
def isConstantNumber (name : Str) : Bool :=
  if (str% "__").isPrefixOf name then
    let r := name.drop 2
    (str% "real@").isPrefixOf r || (str% "xmm@").isPrefixOf r || (str% "ymm@").isPrefixOf r
  else false

/-- src/symbol.rs:259-261 `should_skip_symbol`. -/
def shouldSkipSymbol (name : Str) : Bool := isConstantString name || isConstantNumber name

end DumpSyms
