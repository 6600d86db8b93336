import Verif.Model.Line
import Verif.Model.Platform
import Verif.Model.InlineOrigins
import Verif.Model.Mapping
/-!
# The unit tests of the repository, on the model

The tests of /repo that read no binary file, each with the inputs and the results of the Rust test.
-/
namespace DumpSyms
namespace UnitTests

/-! ## src/common.rs:56-96 -/

def named (s : Str) : Name := ⟨s, true, .other 0⟩

/-- src/common.rs:61-86 `test_fix_symbol_name`. -/
example : ∀ s ∈ [str% "hello", str% "hello.llvm.1234567890", str% "hello.str.158.llvm.1786438672924483777",
    str% "hello [clone .constprop.0] [clone .isra.0] [clone .cold]", str% "hello.localalias", str% "hello.constprop.0.isra.0"],
    Common.fixSymbolName (named s) = named (str% "hello") := by decide +kernel
example : Common.fixSymbolName (named (str% "hello [clone foo][bar]")) = named (str% "hello [clone foo][bar]") := by decide +kernel

/-- src/common.rs:88-95 `test_normalize_anonymous_namespace`. -/
example : Common.normalizeAnonymousNamespace (str% "(anonymous namespace)") = str% "(anonymous namespace)" ∧
    Common.normalizeAnonymousNamespace (str% "`anonymous namespace'") = str% "(anonymous namespace)" := by decide +kernel

/-! ## src/inline_origins.rs:82-122 -/

/-- What the demangler says in these tests. -/
def testDm : Demangler := fun n =>
  if n.text = str% "_ZL15draw_depth_spanIjEvjPT_R11DepthCursor" then
    some (str% "draw_depth_span<unsigned int>(unsigned int, unsigned int*, DepthCursor&)")
  else none

def cpp (s : Str) : Name := ⟨s, true, .other 1⟩

/-- src/inline_origins.rs:88-104 `test_demangle`. -/
example : (InlineOrigins.getId testDm .empty (cpp (str% "_ZL15draw_depth_spanIjEvjPT_R11DepthCursor"))).2.getList =
    [str% "draw_depth_span<unsigned int>(unsigned int, unsigned int*, DepthCursor&)"] := by decide +kernel

/-- src/inline_origins.rs:106-121 `test_bad_chars`. -/
example : (InlineOrigins.getId testDm .empty (cpp ['\n', '\uFFFD', '\uFFFD', 'P', '\uFFFD'])).2.getList = [['\uFFFD', '\uFFFD', 'P', '\uFFFD']] := by
  decide +kernel

/-! ## src/line.rs:250-295 -/

/-- src/line.rs:254-294 `no_overflow_when_lines_spill_out_of_function`. -/
example : ((((((Lines.new.addLine 0x10 100 0).addLine 0x18 102 0).addLine 0x14 101 0).addLine 0x1c 103 0).finalize 0x10 0x9) >>= fun s => .ok s.lines) =
    .ok [⟨0x10, 4, 100, 0⟩, ⟨0x14, 4, 101, 0⟩, ⟨0x18, 4, 102, 0⟩, ⟨0x1c, 0, 103, 0⟩] := by decide +kernel

/-! ## src/platform.rs:77-165 -/

/-- src/platform.rs:81-107 `test_linux`. -/
example : Platform.linux.isAbsolutePath (str% "/home/test/filename") = true ∧ Platform.linux.isAbsolutePath (str% "test/filename") = false ∧
    Platform.linux.isAbsolutePath (str% "../test/filename") = false := by decide +kernel
example : Platform.linux.joinPaths (str% "/home/test/") (str% "filename") = str% "/home/test/filename" ∧
    Platform.linux.joinPaths (str% "/home/test") (str% "filename") = str% "/home/test/filename" ∧
    Platform.linux.joinPaths (str% "/home/test/") (str% "test2/filename") = str% "/home/test/test2/filename" ∧
    Platform.linux.joinPaths (str% "/home/test/") (str% "/test2/filename") = str% "/home/test/test2/filename" ∧
    Platform.linux.joinPaths (str% "/home/test") (str% "/test2/filename") = str% "/home/test/test2/filename" := by decide +kernel

/-- src/platform.rs:109-164 `test_win`. -/
example : ∀ s ∈ [str% "/home/test/filename", str% "D:\\Users\\test\\filename", str% "\\\\netshare\\test\\filename", str% "E:/Users/test/filename"],
    Platform.win.isAbsolutePath s = true := by decide +kernel
example : ∀ s ∈ [str% "../test/filename", str% "test/filename", str% "..\\test\\filename", str% "test\\filename"],
    Platform.win.isAbsolutePath s = false := by decide +kernel
example : Platform.win.joinPaths (str% "C:\\Users\\test\\") (str% "filename") = str% "C:\\Users\\test\\filename" ∧
    Platform.win.joinPaths (str% "C:\\Users\\test") (str% "filename") = str% "C:\\Users\\test\\filename" ∧
    Platform.win.joinPaths (str% "C:\\Users\\test") (str% "test2\\filename") = str% "C:\\Users\\test\\test2\\filename" ∧
    Platform.win.joinPaths (str% "C:\\Users\\test") (str% "\\test2\\filename") = str% "C:\\Users\\test\\test2\\filename" := by decide +kernel
example : Platform.win.joinPaths (str% "/home/test/") (str% "filename") = str% "/home/test/filename" ∧
    Platform.win.joinPaths (str% "/home/test") (str% "filename") = str% "/home/test/filename" ∧
    Platform.win.joinPaths (str% "/home/test/") (str% "test2/filename") = str% "/home/test/test2/filename" ∧
    Platform.win.joinPaths (str% "/home/test/") (str% "/test2/filename") = str% "/home/test/test2/filename" ∧
    Platform.win.joinPaths (str% "/home/test") (str% "/test2/filename") = str% "/home/test/test2/filename" := by decide +kernel

/-! ## src/mapping.rs:339-381 -/

open Mapping

/-- The text up to and after the first character for which `stop` holds. -/
def cutAt (stop : Char → Bool) (s : Str) : Str × Str := (s.takeWhile fun c => !stop c, (s.dropWhile fun c => !stop c).drop 1)

/-- A regular expression `prefix(.*)` that is found at the start of the text. -/
def prefixed (pre : Str) : Mapping.Regex := fun s =>
  if pre.isPrefixOf s then some fun n => if n = 1 then some (s.drop pre.length) else none else none

/-- The regular expressions of these tests, on the paths of these tests. -/
def testRegex (re : Str) : Option Mapping.Regex :=
  if re = str% "test_data/linux/(.*)" then some (prefixed (str% "test_data/linux/"))
  else if re = str% "./test_data/mapping/(.*)" then some (prefixed (str% "./test_data/mapping/"))
  else if re = str% "/home/worker/(.*)" then some (prefixed (str% "/home/worker/"))
  else if re = str% "/rustc/([a-fA-F0-9]+)/(.*)" then some fun s =>
    if (str% "/rustc/").isPrefixOf s then
      let (hash, path) := cutAt (· == '/') (s.drop 7)
      some fun n => if n = 1 then some hash else if n = 2 then some path else none
    else none
  else if re = str% "/cargo/registry/src/[^/]+/([^-]+)-([^/]+)/(.*)" then some fun s =>
    if (str% "/cargo/registry/src/").isPrefixOf s then
      let (_, s) := cutAt (· == '/') (s.drop 20)
      let (package, path) := cutAt (· == '/') s
      let (name, version) := cutAt (· == '-') package
      some fun n => if n = 1 then some name else if n = 2 then some version else if n = 3 then some path else none
    else none
  else none

/-- The SHA-512 digests of test_data/linux/basic.cpp and of the empty files of test_data/mapping. -/
def testDigest (d : List Nat) : List Nat :=
  if d = [1] then
    [0xde, 0xc6, 0x7d, 0x78, 0x81, 0x55, 0xe1, 0x89, 0x5b, 0xa4, 0xfd, 0x1a, 0x17, 0x8c, 0xa5, 0x95, 0x79, 0x89, 0x64, 0x52, 0x9a, 0xab, 0x6a, 0x17,
     0xea, 0x1e, 0xcf, 0xf1, 0x33, 0x49, 0x91, 0x37, 0xfc, 0x67, 0xeb, 0xdc, 0xf0, 0xc7, 0x68, 0xff, 0xb4, 0xfb, 0x7e, 0xc4, 0xf1, 0xf0, 0xfc, 0xf5,
     0x58, 0x07, 0x3e, 0xc8, 0xa3, 0xb2, 0x3c, 0x10, 0x63, 0xd2, 0x3d, 0x62, 0xcc, 0x76, 0xb3, 0x7a]
  else
    [0xcf, 0x83, 0xe1, 0x35, 0x7e, 0xef, 0xb8, 0xbd, 0xf1, 0x54, 0x28, 0x50, 0xd6, 0x6d, 0x80, 0x07, 0xd6, 0x20, 0xe4, 0x05, 0x0b, 0x57, 0x15, 0xdc,
     0x83, 0xf4, 0xa9, 0x21, 0xd3, 0x6c, 0xe9, 0xce, 0x47, 0xd0, 0xd1, 0x3c, 0x5d, 0x85, 0xf2, 0xb0, 0xff, 0x83, 0x18, 0xd2, 0x87, 0x7e, 0xec, 0x2f,
     0x63, 0xb9, 0x31, 0xbd, 0x47, 0x41, 0x7a, 0x81, 0xa5, 0x38, 0x32, 0x7a, 0xf9, 0x27, 0xda, 0x3e]

/-- test_data/mapping.json. -/
def testMapping : MappingsFile where
  variables := [(str% "revision", str% "6639deb894172375b05d6791f5f8c7d53ca79723")]
  mappings := [
    ⟨str% "./test_data/mapping/(.*)", str% "s3:gecko-generated-sources:{digest}/{1}",
      [str% "./test_data/mapping/aaa.cpp", str% "./test_data/mapping/bbb.cpp", str% "./test_data/mapping/ccc.cpp"]⟩,
    ⟨str% "/home/worker/(.*)", str% "hg:hg.mozilla.org/mozilla-central:{1}:{revision}", []⟩,
    ⟨str% "/rustc/([a-fA-F0-9]+)/(.*)", str% "git:github.com/rust-lang/rust:{2}:{1}", []⟩,
    ⟨str% "/cargo/registry/src/[^/]+/([^-]+)-([^/]+)/(.*)", str% "https://doc.rs/{2}/{1}/{3}.html", []⟩]

def testEnv : MapEnv where
  regex := testRegex
  read := fun f =>
    if f = str% "test_data/linux/basic.cpp" then .ok [1]
    else if f ∈ [str% "./test_data/mapping/aaa.cpp", str% "./test_data/mapping/bbb.cpp", str% "./test_data/mapping/ccc.cpp"] then .ok []
    else if f = str% "./test_data/mapping.json" then .ok [2]
    else .err (str% "missing")
  json := fun _ => some testMapping
  sha512 := testDigest
  windows := false
  order := id

/-- src/mapping.rs:344-360 `test_path_mapping_generator`. -/
example : (Generator.new testEnv (str% "test_data/linux/(.*)") (str% "https://source/{rev}/{digest}/{1}/last") [(str% "rev", str% "abcdef")] [] >>=
      fun g => g.apply testEnv (str% "test_data/linux/basic.cpp") (str% "test_data/linux/basic.cpp")) =
    .ok (some (str% "https://source/abcdef/dec67d788155e1895ba4fd1a178ca595798964529aab6a17ea1ecff133499137fc67ebdcf0c768ffb4fb7ec4f1f0fcf558073ec8a3b23c1063d23d62cc76b37a/basic.cpp/last")) := by
  decide +kernel

/-- The answers of the mapping file of the tests. -/
def testMap (path : Str) : Res (Option Str) := do
  match ← Mapping.new testEnv none none none (some (str% "./test_data/mapping.json")) with
  | none => .panic
  | some gens =>
    let (r, _) ← Mapping.map testEnv gens [] path
    .ok r

def emptyDigest : Str :=
  str% "cf83e1357eefb8bdf1542850d66d8007d620e4050b5715dc83f4a921d36ce9ce47d0d13c5d85f2b0ff8318d2877eec2f63b931bd47417a81a538327af927da3e"

/-- src/mapping.rs:362-380 `test_path_mapping_file`. -/
example : testMap (str% "/home/worker/a/c/ddd.cpp") =
    .ok (some (str% "hg:hg.mozilla.org/mozilla-central:a/c/ddd.cpp:6639deb894172375b05d6791f5f8c7d53ca79723")) := by decide +kernel
example : testMap (str% "./test_data/mapping/bbb.cpp") = .ok (some (str% "s3:gecko-generated-sources:" ++ emptyDigest ++ str% "/bbb.cpp")) := by
  decide +kernel
example : testMap (str% "/rustc/f3e1a954d2ead4e2fc197c7da7d71e6c61bad196/src/libcore/str/pattern.rs") =
    .ok (some (str% "git:github.com/rust-lang/rust:src/libcore/str/pattern.rs:f3e1a954d2ead4e2fc197c7da7d71e6c61bad196")) := by decide +kernel
example : testMap (str% "./test_data/mapping/aaa.cpp") = .ok (some (str% "s3:gecko-generated-sources:" ++ emptyDigest ++ str% "/aaa.cpp")) := by
  decide +kernel
example : testMap (str% "/cargo/registry/src/github.com-1ecc6299db9ec823/backtrace-0.3.40/src/print.rs") =
    .ok (some (str% "https://doc.rs/0.3.40/backtrace/src/print.rs.html")) := by decide +kernel
example : testMap (str% "./test_data/mapping/ccc.cpp") = .ok (some (str% "s3:gecko-generated-sources:" ++ emptyDigest ++ str% "/ccc.cpp")) := by
  decide +kernel

end UnitTests
end DumpSyms
