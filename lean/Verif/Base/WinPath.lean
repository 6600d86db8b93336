import Verif.Base.Path
/-!
# `std::path` on Windows, as functions on strings

The parts of `std::path::{Path, PathBuf}` used by `src/utils.rs`, as they are when the program is built for Windows: two separators, and prefixes
(drives, shares, devices and verbatim paths).  A path is a string: simplification, paths that are not valid Unicode are not represented.
-/
namespace DumpSyms
namespace WinPath

/-- The separators. -/
def isSep (c : Char) : Bool := c == '/' || c == '\\'

/-- The separator of verbatim paths. -/
def isVerbatimSep (c : Char) : Bool := c == '\\'

/-- `std::path::Prefix`. -/
inductive Prefix where
  | verbatim (name : Str)
  | verbatimUnc (server share : Str)
  | verbatimDisk (drive : Char)
  | deviceNs (name : Str)
  | unc (server share : Str)
  | disk (drive : Char)
  deriving DecidableEq, Repr

namespace Prefix

/-- `Prefix::len`. -/
def len : Prefix → Nat
  | verbatim x => 4 + x.length
  | verbatimUnc x y => 8 + x.length + (if y = [] then 0 else 1 + y.length)
  | verbatimDisk _ => 6
  | deviceNs x => 4 + x.length
  | unc x y => 2 + x.length + (if y = [] then 0 else 1 + y.length)
  | disk _ => 2

/-- `Prefix::is_verbatim`. -/
def isVerbatim : Prefix → Bool
  | verbatim _ | verbatimUnc _ _ | verbatimDisk _ => true
  | _ => false

/-- `Prefix::is_drive`. -/
def isDrive : Prefix → Bool
  | disk _ => true
  | _ => false

/-- `Prefix::has_implicit_root`. -/
def hasImplicitRoot (p : Prefix) : Bool := !p.isDrive

end Prefix

/-- `parse_next_component`: what comes before the first separator, and what comes after it. -/
def nextComponent (sep : Char → Bool) (p : Str) : Str × Str :=
  (p.takeWhile (fun c => !sep c), (p.dropWhile (fun c => !sep c)).drop 1)

/-- `parse_drive` (`Char.isAlpha` and `Char.toUpper` are about ASCII letters). -/
def parseDrive : Str → Option Char
  | d :: ':' :: _ => if d.isAlpha then some d.toUpper else none
  | _ => none

/-- `parse_drive_exact`. -/
def parseDriveExact (p : Str) : Option Char :=
  match p.drop 2 with
  | [] => parseDrive p
  | c :: _ => if isSep c then parseDrive p else none

/-- `PrefixParserSlice::strip_prefix`: the path has `/` replaced by `\`. -/
def strip : Str → Str → Option Str
  | [], p => some p
  | _ :: _, [] => none
  | c :: cs, d :: p => if (if d = '/' then '\\' else d) = c then strip cs p else none

/-- `parse_prefix`. -/
def parsePrefix (p : Str) : Option Prefix :=
  match strip ['\\', '\\'] p with
  | some p1 =>
    match if '/' ∈ p.take 4 then none else strip ['?', '\\'] p1 with
    | some p2 =>
      match strip ['U', 'N', 'C', '\\'] p2 with
      | some p3 =>
        let (server, r) := nextComponent isVerbatimSep p3
        some (.verbatimUnc server (nextComponent isVerbatimSep r).1)
      | none =>
        match parseDriveExact p2 with
        | some d => some (.verbatimDisk d)
        | none => some (.verbatim (nextComponent isVerbatimSep p2).1)
    | none =>
      match strip ['.', '\\'] p1 with
      | some p2 => some (.deviceNs (nextComponent isSep p2).1)
      | none =>
        let (server, r) := nextComponent isSep p1
        let share := (nextComponent isSep r).1
        if server ≠ [] ∧ share ≠ [] then some (.unc server share) else none
  | none => (parseDrive p).map .disk

/-- `Components::prefix_len`. -/
def prefixLen (p : Str) : Nat := ((parsePrefix p).map Prefix.len).getD 0

/-- `Components::prefix_verbatim`. -/
def verbatim (p : Str) : Bool := ((parsePrefix p).map Prefix.isVerbatim).getD false

/-- `Components::is_sep_byte`. -/
def sepOf (p : Str) : Char → Bool := if verbatim p then isVerbatimSep else isSep

/-- `has_physical_root`. -/
def hasPhysicalRoot (p : Str) : Bool := ((p.drop (prefixLen p)).head?.map isSep).getD false

/-- `Path::has_root`. -/
def hasRoot (p : Str) : Bool := hasPhysicalRoot p || ((parsePrefix p).map Prefix.hasImplicitRoot).getD false

/-- `Path::is_absolute`. -/
def isAbs (p : Str) : Bool := hasRoot p && (parsePrefix p).isSome

/-- `Components::include_cur_dir`. -/
def includeCurDir (p : Str) : Bool :=
  !hasRoot p &&
    match p.drop (prefixLen p) with
    | ['.'] => true
    | '.' :: c :: _ => sepOf p c
    | _ => false

/-- `std::path::Component`; a prefix is kept as written. -/
inductive Comp where
  | pre (raw : Str)
  | rootDir
  | curDir
  | parentDir
  | normal (s : Str)
  deriving DecidableEq, Repr

/-- `Component::as_os_str`. -/
def Comp.text : Comp → Str
  | pre raw => raw
  | rootDir => ['\\']
  | curDir => ['.']
  | parentDir => ['.', '.']
  | normal s => s

/-- `Components::parse_single_component`. -/
def single (verbatim : Bool) (s : Str) : Option Comp :=
  if s = ['.'] then if verbatim then some .curDir else none
  else if s = ['.', '.'] then some .parentDir
  else if s = [] then none
  else some (.normal s)

/-- The components after the prefix, the root and a leading `.`. -/
def body (sep : Char → Bool) (verbatim : Bool) (s : Str) : List Comp := (splitOn sep s).filterMap (single verbatim)

/-- `Components::next` at the start of the path: the root, or a leading `.` of a path without prefix. -/
def start (p : Str) : List Comp :=
  if hasPhysicalRoot p then [.rootDir]
  else match parsePrefix p with
    | some q => if q.hasImplicitRoot && !q.isVerbatim then [.rootDir] else []
    | none => if includeCurDir p then [.curDir] else []

/-- `Components::len_before_body`. -/
def lenBeforeBody (p : Str) : Nat :=
  prefixLen p + (if hasPhysicalRoot p then 1 else 0) + (if includeCurDir p then 1 else 0)

/-- The prefix component. -/
def prefixComp (p : Str) : List Comp := if (parsePrefix p).isSome then [.pre (p.take (prefixLen p))] else []

/-- `Path::components`. -/
def components (p : Str) : List Comp :=
  prefixComp p ++ start p ++ body (sepOf p) (verbatim p) (p.drop (lenBeforeBody p))

/-- One component of a path pushed on a verbatim path (`PathBuf::push`). -/
def verbatimStep (buf : List Comp) : Comp → List Comp
  | .rootDir => buf.take 1 ++ [.rootDir]
  | .curDir => buf
  | .parentDir =>
    match buf.getLast? with
    | some (.normal _) => buf.dropLast
    | _ => buf
  | c => buf ++ [c]

/-- The text of the components of a verbatim path, whose prefix is no plain drive (`PathBuf::push`); `needSep` tells whether a separator is due. -/
def verbatimText : Bool → List Comp → Str
  | _, [] => []
  | needSep, c :: cs =>
    (if needSep && c ≠ .rootDir then ['\\'] else []) ++ c.text ++
      verbatimText (c ≠ .rootDir) cs

/-- `PathBuf::push`. -/
def push (p q : Str) : Str :=
  let needSep := (p.getLast?.map (fun c => !isSep c)).getD false &&
    !(0 < prefixLen p && prefixLen p == p.length && ((parsePrefix p).map Prefix.isDrive).getD false)
  if isAbs q || (parsePrefix q).isSome then q
  else if verbatim p && q ≠ [] then verbatimText false ((components q).foldl verbatimStep (components p))
  else if hasRoot q then p.take (prefixLen p) ++ q
  else if needSep then p ++ '\\' :: q
  else p ++ q

/-- `Components::parse_next_component_back`: the text without its last piece. -/
def cutLast (sep : Char → Bool) (s : Str) : Str := ((s.reverse.dropWhile (fun c => !sep c)).drop 1).reverse

/-- `Components::parse_next_component_back`: the last piece. -/
def lastPiece (sep : Char → Bool) (s : Str) : Str := (s.reverse.takeWhile (fun c => !sep c)).reverse

/-- `Components::trim_right` on the text after `len_before_body`; each round shortens it, so its length is enough rounds. -/
def trimRight (sep : Char → Bool) (verbatim : Bool) : Nat → Str → Str
  | 0, s => s
  | n + 1, s => if s ≠ [] ∧ single verbatim (lastPiece sep s) = none then trimRight sep verbatim n (cutLast sep s) else s

/-- The text after `len_before_body` without what follows its last component. -/
def trimmedBody (p : Str) : Str :=
  let b := p.drop (lenBeforeBody p)
  trimRight (sepOf p) (verbatim p) b.length b

/-- `Path::parent`. -/
def parent (p : Str) : Option Str :=
  let b := trimmedBody p
  if b ≠ [] then
    let r := cutLast (sepOf p) b
    some (p.take (lenBeforeBody p) ++ trimRight (sepOf p) (verbatim p) r.length r)
  else if start p = [.curDir] then some (p.take (lenBeforeBody p - 1))
  else none

/-- `PathBuf::pop`. -/
def pop (p : Str) : Str := (parent p).getD p

/-- `Path::file_name`. -/
def fileName (p : Str) : Option Str :=
  match (components p).getLast? with
  | some (.normal s) => some s
  | _ => none

/-- `Path::extension`. -/
def extension (p : Str) : Option Str :=
  match fileName p with
  | none => none
  | some f =>
    match Path.rsplitDot f with
    | none => none
    | some (before, after) => if before = [] then none else some after

/-- `Path::file_stem`. -/
def fileStem (p : Str) : Option Str :=
  match fileName p with
  | none => none
  | some f =>
    match Path.rsplitDot f with
    | none => some f
    | some (before, _) => if before = [] then some f else some before

/-- `PathBuf::set_extension`. -/
def setExtension (p ext : Str) : Str :=
  match fileName p, fileStem p with
  | some f, some stem =>
    let t := p.take (lenBeforeBody p) ++ trimmedBody p
    t.take (t.length - f.length) ++ stem ++ (if ext = [] then [] else '.' :: ext)
  | _, _ => p

end WinPath
end DumpSyms
