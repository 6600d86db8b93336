import Verif.Base.WinPath
/-!
# The model of `std::path` on the tests of the Rust standard library

The tables of `test_decompositions_unix`, `test_decompositions_windows`, `test_stem_ext`, `test_push` and `test_set_extension` in `library/std` of Rust, evaluated on the model.
The source of the library was not at hand, so the rows were written down from memory. They check the description of the library that the model is built on; they are no claims about dump_syms.
-/
namespace DumpSyms
namespace StdPath

/-- What a test says of a path: its components, `has_root`, `is_absolute`, `parent`, `file_name`, `file_stem` and `extension`. -/
structure Row where
  path : Str
  iter : List Str
  hasRoot : Bool
  isAbs : Bool
  parent : Option Str
  fileName : Option Str
  fileStem : Option Str
  extension : Option Str
  deriving DecidableEq

def windows : List Row :=
  [
    ⟨[], [], false, false, none, none, none, none⟩,
    ⟨str% "foo", [str% "foo"], false, false, some [], some (str% "foo"), some (str% "foo"), none⟩,
    ⟨str% "/", [str% "\\"], true, false, none, none, none, none⟩,
    ⟨str% "\\", [str% "\\"], true, false, none, none, none, none⟩,
    ⟨str% "c:", [str% "c:"], false, false, none, none, none, none⟩,
    ⟨str% "c:\\", [str% "c:", str% "\\"], true, true, none, none, none, none⟩,
    ⟨str% "c:/", [str% "c:", str% "\\"], true, true, none, none, none, none⟩,
    ⟨str% "/foo", [str% "\\", str% "foo"], true, false, some (str% "/"), some (str% "foo"), some (str% "foo"), none⟩,
    ⟨str% "/foo/", [str% "\\", str% "foo"], true, false, some (str% "/"), some (str% "foo"), some (str% "foo"), none⟩,
    ⟨str% "foo/", [str% "foo"], false, false, some [], some (str% "foo"), some (str% "foo"), none⟩,
    ⟨str% "foo/bar", [str% "foo", str% "bar"], false, false, some (str% "foo"), some (str% "bar"), some (str% "bar"), none⟩,
    ⟨str% "/foo/bar", [str% "\\", str% "foo", str% "bar"], true, false, some (str% "/foo"), some (str% "bar"), some (str% "bar"), none⟩,
    ⟨str% "///foo///", [str% "\\", str% "foo"], true, false, some (str% "/"), some (str% "foo"), some (str% "foo"), none⟩,
    ⟨str% "///foo///bar", [str% "\\", str% "foo", str% "bar"], true, false, some (str% "///foo"), some (str% "bar"), some (str% "bar"), none⟩,
    ⟨str% "./.", [str% "."], false, false, some [], none, none, none⟩,
    ⟨str% "/..", [str% "\\", str% ".."], true, false, some (str% "/"), none, none, none⟩,
    ⟨str% "../", [str% ".."], false, false, some [], none, none, none⟩,
    ⟨str% "foo/.", [str% "foo"], false, false, some [], some (str% "foo"), some (str% "foo"), none⟩,
    ⟨str% "foo/..", [str% "foo", str% ".."], false, false, some (str% "foo"), none, none, none⟩,
    ⟨str% "foo/./", [str% "foo"], false, false, some [], some (str% "foo"), some (str% "foo"), none⟩,
    ⟨str% "foo/./bar", [str% "foo", str% "bar"], false, false, some (str% "foo"), some (str% "bar"), some (str% "bar"), none⟩,
    ⟨str% "foo/../", [str% "foo", str% ".."], false, false, some (str% "foo"), none, none, none⟩,
    ⟨str% "foo/../bar", [str% "foo", str% "..", str% "bar"], false, false, some (str% "foo/.."), some (str% "bar"), some (str% "bar"), none⟩,
    ⟨str% "./a", [str% ".", str% "a"], false, false, some (str% "."), some (str% "a"), some (str% "a"), none⟩,
    ⟨str% ".", [str% "."], false, false, some [], none, none, none⟩,
    ⟨str% "./", [str% "."], false, false, some [], none, none, none⟩,
    ⟨str% "a/b", [str% "a", str% "b"], false, false, some (str% "a"), some (str% "b"), some (str% "b"), none⟩,
    ⟨str% "a//b", [str% "a", str% "b"], false, false, some (str% "a"), some (str% "b"), some (str% "b"), none⟩,
    ⟨str% "a/./b", [str% "a", str% "b"], false, false, some (str% "a"), some (str% "b"), some (str% "b"), none⟩,
    ⟨str% "a/b/c", [str% "a", str% "b", str% "c"], false, false, some (str% "a/b"), some (str% "c"), some (str% "c"), none⟩,
    ⟨str% "a\\b\\c", [str% "a", str% "b", str% "c"], false, false, some (str% "a\\b"), some (str% "c"), some (str% "c"), none⟩,
    ⟨str% "\\a", [str% "\\", str% "a"], true, false, some (str% "\\"), some (str% "a"), some (str% "a"), none⟩,
    ⟨str% "c:\\foo.txt", [str% "c:", str% "\\", str% "foo.txt"], true, true, some (str% "c:\\"), some (str% "foo.txt"), some (str% "foo"), some (str% "txt")⟩,
    ⟨str% "\\\\server\\share\\foo.txt", [str% "\\\\server\\share", str% "\\", str% "foo.txt"], true, true, some (str% "\\\\server\\share\\"), some (str% "foo.txt"), some (str% "foo"), some (str% "txt")⟩,
    ⟨str% "\\\\server\\share", [str% "\\\\server\\share", str% "\\"], true, true, none, none, none, none⟩,
    ⟨str% "\\\\server", [str% "\\", str% "server"], true, false, some (str% "\\"), some (str% "server"), some (str% "server"), none⟩,
    ⟨str% "\\\\?\\bar\\foo.txt", [str% "\\\\?\\bar", str% "\\", str% "foo.txt"], true, true, some (str% "\\\\?\\bar\\"), some (str% "foo.txt"), some (str% "foo"), some (str% "txt")⟩,
    ⟨str% "\\\\?\\bar", [str% "\\\\?\\bar"], true, true, none, none, none, none⟩,
    ⟨str% "\\\\?\\", [str% "\\\\?\\"], true, true, none, none, none, none⟩,
    ⟨str% "\\\\?\\UNC\\server\\share\\foo.txt", [str% "\\\\?\\UNC\\server\\share", str% "\\", str% "foo.txt"], true, true, some (str% "\\\\?\\UNC\\server\\share\\"), some (str% "foo.txt"), some (str% "foo"), some (str% "txt")⟩,
    ⟨str% "\\\\?\\UNC\\server", [str% "\\\\?\\UNC\\server"], true, true, none, none, none, none⟩,
    ⟨str% "\\\\?\\UNC\\", [str% "\\\\?\\UNC\\"], true, true, none, none, none, none⟩,
    ⟨str% "\\\\?\\C:\\foo.txt", [str% "\\\\?\\C:", str% "\\", str% "foo.txt"], true, true, some (str% "\\\\?\\C:\\"), some (str% "foo.txt"), some (str% "foo"), some (str% "txt")⟩,
    ⟨str% "\\\\?\\C:\\", [str% "\\\\?\\C:", str% "\\"], true, true, none, none, none, none⟩,
    ⟨str% "\\\\?\\C:", [str% "\\\\?\\C:"], true, true, none, none, none, none⟩,
    ⟨str% "\\\\?\\foo/bar", [str% "\\\\?\\foo/bar"], true, true, none, none, none, none⟩,
    ⟨str% "\\\\?\\C:/foo/bar", [str% "\\\\?\\C:", str% "\\", str% "foo/bar"], true, true, some (str% "\\\\?\\C:/"), some (str% "foo/bar"), some (str% "foo/bar"), none⟩,
    ⟨str% "\\\\.\\foo\\bar", [str% "\\\\.\\foo", str% "\\", str% "bar"], true, true, some (str% "\\\\.\\foo\\"), some (str% "bar"), some (str% "bar"), none⟩,
    ⟨str% "\\\\.\\foo", [str% "\\\\.\\foo", str% "\\"], true, true, none, none, none, none⟩,
    ⟨str% "\\\\.\\foo/bar", [str% "\\\\.\\foo", str% "\\", str% "bar"], true, true, some (str% "\\\\.\\foo/"), some (str% "bar"), some (str% "bar"), none⟩,
    ⟨str% "\\\\.\\foo\\bar/baz", [str% "\\\\.\\foo", str% "\\", str% "bar", str% "baz"], true, true, some (str% "\\\\.\\foo\\bar"), some (str% "baz"), some (str% "baz"), none⟩,
    ⟨str% "\\\\.\\", [str% "\\\\.\\", str% "\\"], true, true, none, none, none, none⟩,
    ⟨str% "\\\\?\\a\\b\\", [str% "\\\\?\\a", str% "\\", str% "b"], true, true, some (str% "\\\\?\\a\\"), some (str% "b"), some (str% "b"), none⟩,
    ⟨str% "\\\\?\\C:\\foo.txt.zip", [str% "\\\\?\\C:", str% "\\", str% "foo.txt.zip"], true, true, some (str% "\\\\?\\C:\\"), some (str% "foo.txt.zip"), some (str% "foo.txt"), some (str% "zip")⟩
  ]

theorem windows_decompositions : ∀ r ∈ windows, r = ⟨r.path, (WinPath.components r.path).map WinPath.Comp.text, WinPath.hasRoot r.path, WinPath.isAbs r.path,
    WinPath.parent r.path, WinPath.fileName r.path, WinPath.fileStem r.path, WinPath.extension r.path⟩ := by decide +kernel

def windowsPush : List (Str × Str × Str) :=
  [
    ([], str% "foo", str% "foo"),
    (str% "foo", str% "bar", str% "foo\\bar"),
    (str% "foo/", str% "bar", str% "foo/bar"),
    (str% "foo\\", str% "bar", str% "foo\\bar"),
    (str% "foo//", str% "bar", str% "foo//bar"),
    (str% "foo\\\\", str% "bar", str% "foo\\\\bar"),
    (str% "foo/.", str% "bar", str% "foo/.\\bar"),
    (str% "foo./.", str% "bar", str% "foo./.\\bar"),
    (str% "foo\\.", str% "bar", str% "foo\\.\\bar"),
    (str% "foo.\\.", str% "bar", str% "foo.\\.\\bar"),
    (str% "foo", [], str% "foo\\"),
    (str% "foo", str% ".", str% "foo\\."),
    (str% "foo", str% "..", str% "foo\\.."),
    (str% "foo", str% "/bar", str% "/bar"),
    (str% "foo", str% "\\bar", str% "\\bar"),
    (str% "/foo", str% "/bar", str% "/bar"),
    (str% "/foo", str% "\\bar", str% "\\bar"),
    (str% "c:\\", str% "windows", str% "c:\\windows"),
    (str% "c:", str% "windows", str% "c:windows"),
    (str% "C:\\a\\b\\c", str% "d", str% "C:\\a\\b\\c\\d"),
    (str% "C:\\", str% "a\\b", str% "C:\\a\\b"),
    (str% "a\\b\\c", str% "d", str% "a\\b\\c\\d"),
    (str% "\\a\\b\\c", str% "d", str% "\\a\\b\\c\\d"),
    (str% "a\\b", str% "c\\d", str% "a\\b\\c\\d"),
    (str% "a\\b", str% "\\c\\d", str% "\\c\\d"),
    (str% "a\\b", str% ".", str% "a\\b\\."),
    (str% "a\\b", str% "..\\c", str% "a\\b\\..\\c"),
    (str% "a\\b", str% "C:a.txt", str% "C:a.txt"),
    (str% "a\\b", str% "C:\\a.txt", str% "C:\\a.txt"),
    (str% "C:\\a", str% "C:\\b.txt", str% "C:\\b.txt"),
    (str% "C:\\a\\b\\c", str% "C:d", str% "C:d"),
    (str% "C:a\\b\\c", str% "C:d", str% "C:d"),
    (str% "C:", str% "a\\b\\c", str% "C:a\\b\\c"),
    (str% "C:", str% "..\\a", str% "C:..\\a"),
    (str% "C:\\a\\b", str% "\\c", str% "C:\\c"),
    (str% "\\\\server\\share\\foo", str% "bar", str% "\\\\server\\share\\foo\\bar"),
    (str% "\\\\server\\share\\foo", str% "C:baz", str% "C:baz"),
    (str% "\\\\?\\C:\\a\\b", str% "C:c\\d", str% "C:c\\d"),
    (str% "\\\\?\\C:a\\b", str% "C:c\\d", str% "C:c\\d"),
    (str% "\\\\?\\C:\\a\\b", str% "C:\\c\\d", str% "C:\\c\\d"),
    (str% "\\\\?\\foo\\bar", str% "baz", str% "\\\\?\\foo\\bar\\baz"),
    (str% "\\\\?\\UNC\\server\\share\\foo", str% "bar", str% "\\\\?\\UNC\\server\\share\\foo\\bar"),
    (str% "\\\\?\\UNC\\server\\share", str% "C:\\a", str% "C:\\a"),
    (str% "\\\\?\\UNC\\server\\share", str% "C:a", str% "C:a"),
    (str% "\\\\?\\UNC\\server", str% "foo", str% "\\\\?\\UNC\\server\\foo"),
    (str% "C:\\a", str% "\\\\?\\UNC\\server\\share", str% "\\\\?\\UNC\\server\\share"),
    (str% "\\\\.\\foo\\bar", str% "baz", str% "\\\\.\\foo\\bar\\baz"),
    (str% "\\\\.\\foo\\bar", str% "C:a", str% "C:a"),
    (str% "\\\\.\\foo", str% "..\\bar", str% "\\\\.\\foo\\..\\bar"),
    (str% "\\\\?\\C:", str% "foo", str% "\\\\?\\C:\\foo"),
    (str% "\\\\?\\C:\\bar", str% "../foo", str% "\\\\?\\C:\\foo"),
    (str% "\\\\?\\C:\\bar", str% "../../foo", str% "\\\\?\\C:\\foo"),
    (str% "\\\\?\\C:\\", str% "../foo", str% "\\\\?\\C:\\foo"),
    (str% "\\\\?\\C:", str% "D:\\foo/./", str% "D:\\foo/./"),
    (str% "\\\\?\\C:", str% "\\\\?\\D:\\foo\\.\\", str% "\\\\?\\D:\\foo\\.\\"),
    (str% "\\\\?\\A:\\x\\y", str% "/foo", str% "\\\\?\\A:\\foo"),
    (str% "\\\\?\\A:", str% "..\\foo\\.", str% "\\\\?\\A:\\foo"),
    (str% "\\\\?\\A:\\x\\y", str% ".\\foo\\.", str% "\\\\?\\A:\\x\\y\\foo"),
    (str% "\\\\?\\A:\\x\\y", [], str% "\\\\?\\A:\\x\\y\\")
  ]

theorem windows_push : ∀ r ∈ windowsPush, WinPath.push r.1 r.2.1 = r.2.2 := by decide +kernel

/-- `Component::as_os_str` on Unix. -/
def compText : Comp → Str
  | .rootDir => ['/']
  | .curDir => ['.']
  | .parentDir => ['.', '.']
  | .normal s => s

def unix : List Row :=
  [
    ⟨[], [], false, false, none, none, none, none⟩,
    ⟨str% "foo", [str% "foo"], false, false, some [], some (str% "foo"), some (str% "foo"), none⟩,
    ⟨str% "/", [str% "/"], true, true, none, none, none, none⟩,
    ⟨str% "/foo", [str% "/", str% "foo"], true, true, some (str% "/"), some (str% "foo"), some (str% "foo"), none⟩,
    ⟨str% "foo/", [str% "foo"], false, false, some [], some (str% "foo"), some (str% "foo"), none⟩,
    ⟨str% "/foo/", [str% "/", str% "foo"], true, true, some (str% "/"), some (str% "foo"), some (str% "foo"), none⟩,
    ⟨str% "foo/bar", [str% "foo", str% "bar"], false, false, some (str% "foo"), some (str% "bar"), some (str% "bar"), none⟩,
    ⟨str% "/foo/bar", [str% "/", str% "foo", str% "bar"], true, true, some (str% "/foo"), some (str% "bar"), some (str% "bar"), none⟩,
    ⟨str% "///foo///", [str% "/", str% "foo"], true, true, some (str% "/"), some (str% "foo"), some (str% "foo"), none⟩,
    ⟨str% "///foo///bar", [str% "/", str% "foo", str% "bar"], true, true, some (str% "///foo"), some (str% "bar"), some (str% "bar"), none⟩,
    ⟨str% "./.", [str% "."], false, false, some [], none, none, none⟩,
    ⟨str% "/..", [str% "/", str% ".."], true, true, some (str% "/"), none, none, none⟩,
    ⟨str% "../", [str% ".."], false, false, some [], none, none, none⟩,
    ⟨str% "foo/.", [str% "foo"], false, false, some [], some (str% "foo"), some (str% "foo"), none⟩,
    ⟨str% "foo/..", [str% "foo", str% ".."], false, false, some (str% "foo"), none, none, none⟩,
    ⟨str% "foo/./", [str% "foo"], false, false, some [], some (str% "foo"), some (str% "foo"), none⟩,
    ⟨str% "foo/./bar", [str% "foo", str% "bar"], false, false, some (str% "foo"), some (str% "bar"), some (str% "bar"), none⟩,
    ⟨str% "foo/../", [str% "foo", str% ".."], false, false, some (str% "foo"), none, none, none⟩,
    ⟨str% "foo/../bar", [str% "foo", str% "..", str% "bar"], false, false, some (str% "foo/.."), some (str% "bar"), some (str% "bar"), none⟩,
    ⟨str% "./a", [str% ".", str% "a"], false, false, some (str% "."), some (str% "a"), some (str% "a"), none⟩,
    ⟨str% ".", [str% "."], false, false, some [], none, none, none⟩,
    ⟨str% "./", [str% "."], false, false, some [], none, none, none⟩,
    ⟨str% "a/b", [str% "a", str% "b"], false, false, some (str% "a"), some (str% "b"), some (str% "b"), none⟩,
    ⟨str% "a//b", [str% "a", str% "b"], false, false, some (str% "a"), some (str% "b"), some (str% "b"), none⟩,
    ⟨str% "a/./b", [str% "a", str% "b"], false, false, some (str% "a"), some (str% "b"), some (str% "b"), none⟩,
    ⟨str% "a/b/c", [str% "a", str% "b", str% "c"], false, false, some (str% "a/b"), some (str% "c"), some (str% "c"), none⟩,
    ⟨str% ".foo", [str% ".foo"], false, false, some [], some (str% ".foo"), some (str% ".foo"), none⟩,
    ⟨str% "a/.foo", [str% "a", str% ".foo"], false, false, some (str% "a"), some (str% ".foo"), some (str% ".foo"), none⟩,
    ⟨str% "a/.rustfmt.toml", [str% "a", str% ".rustfmt.toml"], false, false, some (str% "a"), some (str% ".rustfmt.toml"), some (str% ".rustfmt"), some (str% "toml")⟩,
    ⟨str% "foo.tar.gz", [str% "foo.tar.gz"], false, false, some [], some (str% "foo.tar.gz"), some (str% "foo.tar"), some (str% "gz")⟩,
    ⟨str% "foo.", [str% "foo."], false, false, some [], some (str% "foo."), some (str% "foo"), some []⟩,
    ⟨str% "..x.y.z", [str% "..x.y.z"], false, false, some [], some (str% "..x.y.z"), some (str% "..x.y"), some (str% "z")⟩
  ]

theorem unix_decompositions : ∀ r ∈ unix, r = ⟨r.path, (Path.components r.path).map compText, Path.isAbs r.path, Path.isAbs r.path,
    Path.parent r.path, Path.fileName r.path, Path.fileStem r.path, Path.extension r.path⟩ := by decide +kernel

def unixPush : List (Str × Str × Str) :=
  [
    ([], str% "foo", str% "foo"),
    (str% "foo", str% "bar", str% "foo/bar"),
    (str% "foo/", str% "bar", str% "foo/bar"),
    (str% "foo//", str% "bar", str% "foo//bar"),
    (str% "foo/.", str% "bar", str% "foo/./bar"),
    (str% "foo./.", str% "bar", str% "foo././bar"),
    (str% "foo", [], str% "foo/"),
    (str% "foo", str% ".", str% "foo/."),
    (str% "foo", str% "..", str% "foo/.."),
    (str% "/foo/bar", str% "/", str% "/"),
    (str% "/foo/bar", str% "/baz", str% "/baz"),
    (str% "/foo/bar", str% "./baz", str% "/foo/bar/./baz")
  ]

theorem unix_push : ∀ r ∈ unixPush, Path.push r.1 r.2.1 = r.2.2 := by decide +kernel

def extensions : List (Str × Str × Str) :=
  [
    (str% "foo", str% "txt", str% "foo.txt"),
    (str% "foo.bar", str% "txt", str% "foo.txt"),
    (str% "foo.bar.baz", str% "txt", str% "foo.bar.txt"),
    (str% ".test", str% "txt", str% ".test.txt"),
    (str% "foo.txt", [], str% "foo"),
    (str% "foo", [], str% "foo"),
    ([], str% "foo", []),
    (str% ".", str% "foo", str% "."),
    (str% "foo/", str% "bar", str% "foo.bar"),
    (str% "foo/.", str% "bar", str% "foo.bar"),
    (str% "..", str% "foo", str% ".."),
    (str% "foo/..", str% "bar", str% "foo/.."),
    (str% "/", str% "foo", str% "/")
  ]

theorem set_extension : ∀ r ∈ extensions, Path.setExtension r.1 r.2.1 = r.2.2 ∧ WinPath.setExtension r.1 r.2.1 = r.2.2 := by decide +kernel

end StdPath
end DumpSyms
