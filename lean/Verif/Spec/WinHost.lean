import Verif.Base.WinPath
import Verif.Spec.Paths
/-!
# Paths on Windows
-/
namespace DumpSyms

/-- No separator of Windows. -/
def NoSep (c : Str) : Prop := '/' ∉ c ∧ '\\' ∉ c

/-- Starts with a drive: a letter and a colon. -/
def DriveLike (c : Str) : Prop := ∃ d rest, c = d :: ':' :: rest ∧ d.isAlpha = true

/-- A name usable as one component of a Windows path. -/
def WinProper (c : Str) : Prop := c ≠ [] ∧ NoSep c ∧ c ≠ ['.'] ∧ c ≠ ['.', '.'] ∧ ¬ DriveLike c

/-- The names separated by single `\`. -/
def joinBack : List Str → Str
  | [] => []
  | [c] => c
  | c :: cs => c ++ '\\' :: joinBack cs

/-- The path with the given prefix, root and names. -/
def renderWin (raw : Str) (root : Bool) (cs : List Str) : Str := raw ++ (if root then ['\\'] else []) ++ joinBack cs

/-- Nothing is put between the directory and a name in it: the directory is empty, ends in a separator or is a bare drive. -/
def NoSepAfter (dir : Str) : Prop := dir = [] ∨ (∃ s x, dir = s ++ [x] ∧ (x = '/' ∨ x = '\\')) ∨ ∃ x, dir = [x, ':'] ∧ x.isAlpha = true

/-- Lexical resolution of `.` and `..`: a name is entered, `..` leaves the last name entered (if any). -/
def winResolveStep (stack : List Str) : WinPath.Comp → List Str
  | .pre _ => stack
  | .rootDir => []
  | .curDir => stack
  | .parentDir => stack.dropLast
  | .normal c => stack ++ [c]

def winResolve (cs : List WinPath.Comp) : List Str := cs.foldl winResolveStep []

/-- The separators of Windows. -/
def winSep (c : Char) : Bool := c == '/' || c == '\\'

/-- The only separator after a verbatim prefix. -/
def verbatimSep (c : Char) : Bool := c == '\\'

/-- The names of a text cut at its separators that are left when `.` and `..` are resolved. -/
def resolveNames (sep : Char → Bool) (s : Str) : List Str :=
  (splitOn sep s).foldl (fun st c => if c = [] ∨ c = ['.'] then st else if c = ['.', '.'] then st.dropLast else st ++ [c]) []

/-- The text starts with a separator. -/
def StartsSep (s : Str) : Prop := ∃ x r, s = x :: r ∧ winSep x = true

/-- The parts of a path that is not verbatim: its prefix (none, a drive, a device or a share), whether it is rooted, and the text of its names. -/
inductive WinParts : Str → Str → Bool → Str → Prop
  | plain (s : Str) (hd : ¬ DriveLike s) (hs : ¬ StartsSep s) : WinParts s [] false s
  | rooted (x : Char) (s : Str) (hx : winSep x = true) (hs : ¬ StartsSep s) : WinParts (x :: s) [] true s
  | drive (d : Char) (s : Str) (hd : d.isAlpha = true) (hs : ¬ StartsSep s) : WinParts (d :: ':' :: s) [d, ':'] false s
  | driveRooted (d x : Char) (s : Str) (hd : d.isAlpha = true) (hx : winSep x = true) : WinParts (d :: ':' :: x :: s) [d, ':'] true s
  | device (a b c : Char) (name t s : Str) (ha : winSep a = true) (hb : winSep b = true) (hc : winSep c = true) (hn : NoSep name)
      (ht : (t = [] ∧ s = []) ∨ ∃ x, winSep x = true ∧ t = x :: s) : WinParts (a :: b :: '.' :: c :: (name ++ t)) (a :: b :: '.' :: c :: name) true s
  | share (a b c : Char) (server name t s : Str) (ha : winSep a = true) (hb : winSep b = true) (hc : winSep c = true)
      (hn : NoSep server) (hm : NoSep name) (h1 : server ≠ []) (h2 : name ≠ []) (h3 : server ≠ ['?']) (h4 : server ≠ ['.'])
      (ht : (t = [] ∧ s = []) ∨ ∃ x, winSep x = true ∧ t = x :: s) :
      WinParts (a :: b :: (server ++ c :: (name ++ t))) (a :: b :: (server ++ c :: name)) true s

/-- The prefixes of verbatim paths: `\\\\?\\C:`, `\\\\?\\UNC\\server\\share` and `\\\\?\\name`. -/
inductive VerbatimRoot : Str → Prop
  | disk (d : Char) (hd : d.isAlpha = true) : VerbatimRoot ['\\', '\\', '?', '\\', d, ':']
  | unc (server share : Str) (h1 : '\\' ∉ server) (h2 : '\\' ∉ share) (h3 : share ≠ []) :
      VerbatimRoot ('\\' :: '\\' :: '?' :: '\\' :: 'U' :: 'N' :: 'C' :: '\\' :: (server ++ '\\' :: share))
  | name (n : Str) (hn : '\\' ∉ n) (hu : n ≠ ['U', 'N', 'C'] ∧ ¬ ∃ r, n = 'U' :: 'N' :: 'C' :: '/' :: r)
      (hd : ¬ ∃ d r, n = d :: ':' :: r ∧ d.isAlpha = true ∧ (r = [] ∨ ∃ r', r = '/' :: r')) : VerbatimRoot ('\\' :: '\\' :: '?' :: '\\' :: n)

/-- A name of a verbatim path. -/
def VerbatimName (c : Str) : Prop := c ≠ [] ∧ '\\' ∉ c ∧ c ≠ ['.'] ∧ c ≠ ['.', '.']

end DumpSyms
