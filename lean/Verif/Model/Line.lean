import Verif.Base.Res
import Verif.Base.Sort
import Verif.Base.SMap
import Verif.Base.Str
/-!
# Model of src/line.rs
-/
namespace DumpSyms

/-- src/line.rs:11-22 `struct Line`. -/
structure Line where
  rva : Nat
  len : Nat
  num : Nat
  fileId : Nat
  deriving DecidableEq, Repr

/-- src/line.rs:35-46 `struct InlineSite` (fields in declaration order, which fixes the derived `Ord`). -/
structure InlineSite where
  originId : Nat
  depth : Nat
  callLine : Nat
  callFile : Nat
  deriving DecidableEq, Repr

/-- src/line.rs:60-66 `struct InlineAddressRange`. -/
structure IRange where
  rva : Nat
  len : Nat
  deriving DecidableEq, Repr

/-- src/line.rs:35 `#[derive(PartialOrd, Ord)]`: lexicographic order in field order. -/
def InlineSite.lt (a b : InlineSite) : Bool :=
  a.originId < b.originId || (a.originId = b.originId && (a.depth < b.depth || (a.depth = b.depth &&
    (a.callLine < b.callLine || (a.callLine = b.callLine && a.callFile < b.callFile)))))

instance : StrictOrd InlineSite where
  lt := InlineSite.lt
  irrefl a := by simp [InlineSite.lt]
  trans a b c := by simp [InlineSite.lt]; omega
  tri a b := by
    cases a; cases b
    simp [InlineSite.lt]; omega

/-- src/line.rs:86-104 `struct Lines`.  `inlines` is a `BTreeMap<InlineSite, Vec<InlineAddressRange>>`. -/
structure Lines where
  lines : List Line
  inlines : SMap InlineSite (List IRange)
  areSorted : Bool
  lastRva : Nat
  deriving DecidableEq, Repr

namespace Lines

/-- src/line.rs:151-158 `Lines::new`. -/
def new : Lines := { lines := [], inlines := [], areSorted := true, lastRva := 0 }

/-- src/line.rs:85 `#[derive(Default)]` for `Lines` (note: the sortedness flag is `false` here). -/
def default : Lines := { lines := [], inlines := [], areSorted := false, lastRva := 0 }

/-- src/line.rs:160-172 `Lines::add_line`. -/
def addLine (s : Lines) (rva num fileId : Nat) : Lines :=
  { s with
    lines := s.lines ++ [{ rva, len := 0, num, fileId }]
    areSorted := s.areSorted && decide (s.lastRva ≤ rva)
    lastRva := rva }

/-- src/line.rs:174-179 `Lines::add_inline` (`entry(site).or_insert_with(Vec::new).push(range)`). -/
def addInline (s : Lines) (site : InlineSite) (r : IRange) : Lines :=
  { s with inlines := s.inlines.insert site ((s.inlines.get? site).getD [] ++ [r]) }

/-- src/line.rs:238-245: the loop of `Vec::dedup_by`; `cur` is the last kept element. -/
def joinFrom (cur : IRange) : List IRange → List IRange
  | [] => [cur]
  | n :: rest =>
    if checkedAdd cur.rva cur.len = some n.rva then
      joinFrom { cur with len := wadd cur.len n.len } rest
    else cur :: joinFrom n rest

/-- src/line.rs:238-245 `ranges.dedup_by(..)`. -/
def joinRanges : List IRange → List IRange
  | [] => []
  | r :: rest => joinFrom r rest

/-- src/line.rs:228-247 `Lines::ensure_order`. -/
def ensureOrder (s : Lines) : Lines :=
  let s := if s.areSorted then s
    else { s with lines := isort (fun a b => decide (a.rva ≤ b.rva)) s.lines, areSorted := true }
  { s with inlines := s.inlines.map fun e =>
      (e.1, joinRanges (isort (fun a b => decide (a.rva ≤ b.rva)) e.2)) }

/-- src/line.rs:207-215 for all lines but the last (`windows(2)`), and 217-221 for the last one. -/
def setLens (symRva symLen : Nat) : List Line → List Line
  | [] => []
  | [last] =>
    match checkedAdd symRva symLen with
    | some e => if last.rva < e then [{ last with len := wsub e last.rva }] else [last]
    | none => [last]
  | a :: b :: rest => { a with len := wsub b.rva a.rva } :: setLens symRva symLen (b :: rest)

/-- src/line.rs:186-222 `Lines::compute_len`. -/
def computeLen (s : Lines) (symRva symLen : Nat) : Res Lines :=
  if s.lines = [] then .ok s
  else if s.areSorted then .ok { s with lines := setLens symRva symLen s.lines }
  else .panic

/-- src/line.rs:181-184 `Lines::finalize`. -/
def finalize (s : Lines) (symRva symLen : Nat) : Res Lines :=
  (s.ensureOrder).computeLen symRva symLen

/-- src/line.rs:106-121 `write_inline_record`. -/
def printInline (site : InlineSite) (ranges : List IRange) : Str :=
  str% "INLINE " ++ dec site.depth ++ str% " " ++ dec site.callLine ++ str% " " ++ dec site.callFile ++
    str% " " ++ dec site.originId ++
    (ranges.flatMap fun r => str% " " ++ hex r.rva ++ str% " " ++ hex r.len) ++ str% "\n"

/-- src/line.rs:123-129 `write_line_record`. -/
def printLine (l : Line) : Str :=
  hex l.rva ++ str% " " ++ hex l.len ++ str% " " ++ dec l.num ++ str% " " ++ dec l.fileId ++ str% "\n"

/-- src/line.rs:137: the sort key `(ranges.first().unwrap().rva, site.call_depth)` with tuple order.
The `0` default is never used: `display` panics first if some `ranges` is empty. -/
def inlineKeyLe (a b : InlineSite × List IRange) : Bool :=
  let ka := (a.2.head?.map (fun (r : IRange) => r.rva)).getD 0
  let kb := (b.2.head?.map (fun (r : IRange) => r.rva)).getD 0
  decide (ka < kb) || (decide (ka = kb) && decide (a.1.depth ≤ b.1.depth))

/-- src/line.rs:131-148 `Display for Lines`.  The `unwrap` of an empty range list is a panic
(`sort_by_key` does not evaluate the key of a one-element list). -/
def display (s : Lines) : Res Str :=
  if 1 < s.inlines.length && s.inlines.any (fun e => e.2.isEmpty) then .panic
  else .ok (((isort inlineKeyLe s.inlines).flatMap fun e => printInline e.1 e.2) ++
    s.lines.flatMap printLine)

end Lines
/-- A call made on a `Lines` value while a function is collected: src/line.rs:160 `add_line` or src/line.rs:174
`add_inline`. -/
inductive LOp where
  | line (rva num fileId : Nat)
  | inl (site : InlineSite) (range : IRange)
  deriving DecidableEq, Repr

/-- Perform one call. -/
def Lines.apply (s : Lines) : LOp → Lines
  | .line rva num fileId => s.addLine rva num fileId
  | .inl site range => s.addInline site range

/-- Perform all calls, in order, on a fresh value. -/
def Lines.run (ops : List LOp) : Lines := ops.foldl Lines.apply Lines.new

end DumpSyms
