import Verif.Base.Str
/-!
# `std::path` on Unix, as functions on strings

The parts of `std::path::{Path, PathBuf}` the code uses, for a Unix host (`/` is the only separator, no prefixes).
A path is a string: simplification, paths that are not valid Unicode are not represented.
-/
namespace DumpSyms

/-- The separator. -/
def isSlash (c : Char) : Bool := c == '/'

/-- `std::path::Component` (no `Prefix` on Unix). -/
inductive Comp where
  | rootDir
  | curDir
  | parentDir
  | normal (s : Str)
  deriving DecidableEq, Repr

namespace Path

/-- Does the path start at the root (`Path::is_absolute` on Unix)? -/
def isAbs (p : Str) : Bool := p.head? == some '/'

/-- Pieces between separators other than empty ones and `.`. -/
def bodyComp (s : Str) : Option Comp :=
  if s = [] then none
  else if s = ['.'] then none
  else if s = ['.', '.'] then some .parentDir
  else some (.normal s)

/-- `Path::components`: repeated and trailing separators and inner `.` are ignored; a leading `.` of a relative path
is kept. -/
def components (p : Str) : List Comp :=
  match splitOn isSlash p with
  | [] => []
  | first :: rest =>
    (if isAbs p then [.rootDir]
     else if first = ['.'] then [.curDir]
     else (bodyComp first).toList) ++ rest.filterMap bodyComp

/-- `PathBuf::push`. -/
def push (p q : Str) : Str :=
  if isAbs q then q
  else if p.getLast? = none ∨ p.getLast? = some '/' then p ++ q
  else p ++ '/' :: q

/-- `Path::join`. -/
def join (p q : Str) : Str := push p q

/-- Remove trailing separators and trailing `/.` (argument and result reversed). -/
def trimTrailRev : Str → Str
  | '/' :: r => trimTrailRev r
  | '.' :: '/' :: r => trimTrailRev r
  | r => r

/-- Remove trailing separators and trailing `/.`. -/
def trimTrail (p : Str) : Str := (trimTrailRev p.reverse).reverse

/-- `Path::file_name`. -/
def fileName (p : Str) : Option Str :=
  match (components p).getLast? with
  | some (.normal s) => some s
  | _ => none

/-- `Path::parent`. -/
def parent (p : Str) : Option Str :=
  match (components p).getLast? with
  | none => none
  | some .rootDir => none
  | some _ =>
    let t := trimTrail p
    let cut := (t.reverse.dropWhile (fun c => !isSlash c)).reverse
    let r := trimTrail cut
    some (if isAbs p ∧ r = [] then ['/'] else r)

/-- `PathBuf::pop`. -/
def pop (p : Str) : Str := (parent p).getD p

/-- Last `.`: the text before and after it. -/
def rsplitDot (s : Str) : Option (Str × Str) :=
  let after := (s.reverse.takeWhile (· ≠ '.')).reverse
  if after.length = s.length then none
  else some (s.take (s.length - after.length - 1), after)

/-- `Path::extension`. -/
def extension (p : Str) : Option Str :=
  match fileName p with
  | none => none
  | some f =>
    match rsplitDot f with
    | none => none
    | some (before, after) => if before = [] then none else some after

/-- `Path::file_stem`. -/
def fileStem (p : Str) : Option Str :=
  match fileName p with
  | none => none
  | some f =>
    match rsplitDot f with
    | none => some f
    | some (before, _) => if before = [] then some f else some before

/-- `PathBuf::set_extension` / `Path::with_extension`. -/
def setExtension (p ext : Str) : Str :=
  match fileName p, fileStem p with
  | some f, some stem =>
    let t := trimTrail p
    t.take (t.length - f.length) ++ stem ++ (if ext = [] then [] else '.' :: ext)
  | _, _ => p

end Path
end DumpSyms
