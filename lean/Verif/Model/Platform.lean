import Verif.Base.Str
/-!
# Model of src/platform.rs
-/
namespace DumpSyms

/-- src/platform.rs:8-13 `enum Platform`. -/
inductive Platform where
  | linux
  | mac
  | win
  deriving DecidableEq, Repr

/-- The operating system dump_syms itself was built for (`cfg!(target_os = ..)`). -/
inductive TargetOs where
  | linux
  | macos
  | windows
  | other
  deriving DecidableEq, Repr

namespace Platform

/-- src/platform.rs:16-22 `Platform::is_target`. -/
def isTarget (os : TargetOs) : Platform → Bool
  | linux => os == .linux
  | mac => os == .macos
  | win => os == .windows

/-- The separators `['/', '\\']` of src/platform.rs:29 and 50-51. -/
def isWinSep (c : Char) : Bool := c == '/' || c == '\\'

/-- src/platform.rs:24-36 `Platform::is_absolute_path`.  `path.find([..])` followed by slicing is the prefix before the
first separator, or the whole path. -/
def isAbsolutePath : Platform → Str → Bool
  | linux, path | mac, path => path.head? == some '/'
  | win, path =>
    let firstFragment := path.takeWhile (fun c => !isWinSep c)
    firstFragment.isEmpty || firstFragment.getLast? == some ':'

/-- src/platform.rs:38-63 `Platform::join_paths`. -/
def joinPaths : Platform → Str → Str → Str
  | linux, left, right | mac, left, right =>
    trimEnd (· == '/') left ++ '/' :: trimStart (· == '/') right
  | win, left, right =>
    let left := trimEnd isWinSep left
    let right := trimStart isWinSep right
    if left.head? == some '/' then left ++ '/' :: right else left ++ '\\' :: right

/-- src/platform.rs:66-75 `Display for Platform`. -/
def display : Platform → Str
  | linux => str% "Linux"
  | mac => str% "Mac"
  | win => str% "windows"

end Platform
end DumpSyms
