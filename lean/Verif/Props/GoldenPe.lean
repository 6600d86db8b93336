import Verif.Model.ObjectInfo
/-!
# The tests of src/windows/pdb.rs on the DLLs with DWARF data, on the model

`/repo/test_data/windows/basic64-dwarf.dll` and `basic32-dwarf.dll` are made by MinGW: their debug information is DWARF, which `objdump` decodes.
The functions and line records are written here as `objdump` prints them, arranged the way the `symbolic` crate reports them (in the caller, a
stretch that belongs to an inlined call has the line of the call; of several rows at one address the last one counts), with addresses relative to
the image base; likewise the exported symbols and, for the 64-bit file, the exception table.  The inlined calls themselves are left out, as these tests do not ask
for them, and so is the unwind text, an input that is copied.  The model prints the rest of the files `basic64-dwarf.sym` and `basic32-dwarf.sym`, byte
for byte, with one exception: the last record has the name `<unknown>` in the expected files and `<unknown in ...>` here.  The Rust tests do not
compare the names of PUBLIC records, and src/symbol.rs:142-146 gives the name that the model gives.
-/
namespace DumpSyms
namespace GoldenPe

/-- A compilation directory. -/
def comp (s : Str) : ByteSlice := ⟨(1, s.length), s.map fun c => c.toNat.toUInt8⟩

/-- A source file; `n` stands for the place of its name. -/
def file (n : Nat) (dir name : Str) : FileInfo := { dirRef := (100, dir.length), dir, nameRef := (1000 * n, name.length), name }

/-- Line records (address, size, line). -/
def ln (f : FileInfo) (ls : List (Nat × Nat × Nat)) : List LineInfo := ls.map fun l => ⟨l.1, some l.2.1, f, l.2.2⟩

/-- The environment of `ObjectInfo::from_pe`; no name here is demangled, as the functions are in C and the language of exported names is only
looked for after their first underscore is gone. -/
def env : CEnv where
  src := { platform := .win, canonicalize := false, canon := fun _ => none, mapping := fun _ => none }
  dm := fun _ => none
  detect := fun s => if s.take 2 = str% "_Z" then .other 1 else .unknown
  us := fun l => isort (fun r r' => decide (r.start ≤ r'.start)) l

/-- src/windows/pdb.rs:37-50 `from_pe`, then `dump`. -/
def printed (o : ObjInput) (name : Str) : Res Str :=
  ObjectInfo.fromObject env false .win o name none (some name) >>= ObjectInfo.display none

theorem ok_bind {α β : Type} {r : Res α} {f : α → Res β} {b : β} (h : (r >>= f) = .ok b) : ∃ a, r = .ok a ∧ f a = .ok b := by
  cases r with
  | ok a => exact ⟨a, rfl, h⟩
  | err e => cases h
  | panic => cases h

/-- The texts of the symbols, one by one. -/
def symbolParts : List (Nat × Symbol) → Res (List Str)
  | [] => .ok []
  | (_, s) :: rest => do
    let a ← s.display
    let b ← symbolParts rest
    .ok (a :: b)

/-- A symbol file in pieces: the header, a piece for each source file, the origins, a piece for each symbol, the unwind text.  (The kernel cannot
compare texts of ten thousand characters at once.) -/
def parts (o : ObjectInfo) : Res (List Str) := do
  let syms ← symbolParts o.symbols
  .ok ([o.moduleText ++ o.codeIdText] ++ (ObjectInfo.enumFrom 0 o.files.getMapping).map (fun e => str% "FILE " ++ dec e.1 ++ str% " " ++ e.2 ++ str% "
") ++
    [ObjectInfo.originsText o.inlineOrigins] ++ syms ++ [o.stack])

theorem symbolParts_text {l : List (Nat × Symbol)} {ps : List Str} (h : symbolParts l = .ok ps) : ObjectInfo.symbolsText l = .ok ps.flatten := by
  induction l generalizing ps with
  | nil => cases h; rfl
  | cons e l ih =>
    obtain ⟨k, s⟩ := e
    simp only [symbolParts] at h
    obtain ⟨a, ha, h⟩ := ok_bind h
    obtain ⟨b, hb, h⟩ := ok_bind h
    cases h
    simp only [ObjectInfo.symbolsText, ha, ih hb]
    rfl

theorem parts_display {o : ObjectInfo} {ps : List Str} (h : parts o = .ok ps) : o.display none = .ok ps.flatten := by
  unfold parts at h
  obtain ⟨syms, hs, h⟩ := ok_bind h
  cases h
  unfold ObjectInfo.display
  rw [symbolParts_text hs]
  simp [ObjectInfo.filesText, ObjectInfo.extraText, List.flatMap_def]

theorem printed_of_parts {o : ObjInput} {name : Str} {ps : List Str}
    (h : (ObjectInfo.fromObject env false .win o name none (some name) >>= parts) = .ok ps) : printed o name = .ok ps.flatten := by
  obtain ⟨i, hi, h⟩ := ok_bind h
  unfold printed
  rw [hi]
  exact parts_display h

/-! ## `basic64-dwarf.dll` -/

namespace Dll64

/-- The compilation directory of all units. -/
def compDir : ByteSlice := comp (str% "/mxe/tmp-gcc-x86_64-w64-mingw32.static/gcc-11.3.0.build_.crt")

/-- The source files. -/
def f0 : FileInfo := file 1 (str% "/mxe/tmp-gcc-x86_64-w64-mingw32.static/gcc-11.3.0.build_/mingw-w64-v10.0.0/mingw-w64-crt/crt") (str% "crtdll.c")
def f1 : FileInfo := file 2 (str% "/mxe/tmp-gcc-x86_64-w64-mingw32.static/gcc-11.3.0.build_/mingw-w64-v10.0.0/mingw-w64-crt/crt") (str% "gccmain.c")
def f2 : FileInfo := file 3 (str% "/mxe/tmp-gcc-x86_64-w64-mingw32.static/gcc-11.3.0.build_/mingw-w64-v10.0.0/mingw-w64-crt/crt") (str% "tlssup.c")
def f3 : FileInfo := file 4 (str% "/mxe/tmp-gcc-x86_64-w64-mingw32.static/gcc-11.3.0.build_/mingw-w64-v10.0.0/mingw-w64-crt/crt") (str% "pseudo-reloc.c")
def f4 : FileInfo := file 5 (str% "/mxe/tmp-gcc-x86_64-w64-mingw32.static/gcc-11.3.0.build_/mingw-w64-v10.0.0/mingw-w64-crt/crt") (str% "tlsthrd.c")
def f5 : FileInfo := file 6 (str% "/mxe/tmp-gcc-x86_64-w64-mingw32.static/gcc-11.3.0.build_/mingw-w64-v10.0.0/mingw-w64-crt/crt") (str% "pesect.c")
def f6 : FileInfo := file 7 (str% "/mxe/tmp-gcc-x86_64-w64-mingw32.static/gcc-11.3.0.build_/mingw-w64-v10.0.0/mingw-w64-crt/crt") (str% "CRT_fp10.c")
def f7 : FileInfo := file 8 (str% "/mxe/tmp-gcc-x86_64-w64-mingw32.static/gcc-11.3.0.build_/mingw-w64-v10.0.0/mingw-w64-crt/crt") (str% "dllentry.c")
def f8 : FileInfo := file 9 (str% "/mxe/tmp-gcc-x86_64-w64-mingw32.static/gcc-11.3.0.build_/mingw-w64-v10.0.0/mingw-w64-crt/crt") (str% "dllmain.c")
def f9 : FileInfo := file 10 (str% "/mxe/tmp-gcc-x86_64-w64-mingw32.static/gcc-11.3.0.build_/mingw-w64-v10.0.0/mingw-w64-crt/stdio") (str% "acrt_iob_func.c")
def f10 : FileInfo := file 11 (str% "/mxe/tmp-gcc-x86_64-w64-mingw32.static/gcc-11.3.0.build_/mingw-w64-v10.0.0/mingw-w64-crt/misc") (str% "onexit_table.c")

/-- A function. -/
def fn (a s : Nat) (name : Str) (mangled : Bool) (ls : List LineInfo) : Func := .mk a s ⟨name, mangled, .c⟩ compDir ls []

/-- The functions of the DWARF data. -/
def functions : List Func :=
  [
    fn 0x1370 0xf (str% "atexit") false (ln f0 [(0x1370, 3, 205), (0x1373, 7, 206), (0x137a, 5, 206)]),
    fn 0x1200 0x144 (str% "__DllMainCRTStartup") false (ln f0 [(0x1200, 12, 160), (0x120c, 7, 163), (0x1213, 3, 160), (0x1216, 2, 163),
      (0x1218, 6, 160), (0x121e, 4, 164), (0x1222, 10, 164), (0x122c, 5, 169), (0x1231, 13, 185), (0x123e, 14, 194), (0x124c, 9, 195),
      (0x1255, 3, 194), (0x1258, 5, 195), (0x125d, 4, 195), (0x1261, 3, 196), (0x1264, 3, 201), (0x1267, 6, 199), (0x126d, 5, 201), (0x1272, 3, 201),
      (0x1275, 2, 201), (0x1277, 2, 201), (0x1279, 7, 201), (0x1280, 5, 169), (0x1285, 5, 170), (0x128a, 9, 172), (0x1293, 5, 170), (0x1298, 5, 172),
      (0x129d, 4, 173), (0x12a1, 14, 175), (0x12af, 3, 175), (0x12b2, 4, 176), (0x12b6, 6, 183), (0x12bc, 5, 184), (0x12c1, 19, 185),
      (0x12d4, 4, 186), (0x12d8, 13, 188), (0x12e5, 13, 189), (0x12f2, 13, 190), (0x12ff, 9, 192), (0x1308, 5, 185), (0x130d, 3, 185),
      (0x1310, 16, 192), (0x1320, 12, 178), (0x132c, 16, 185), (0x133c, 3, 185), (0x133f, 5, 192)]),
    fn 0x1350 0x12 (str% "DllMainCRTStartup") false (ln f0 [(0x1350, 13, 148), (0x135d, 5, 155)]),
    fn 0x1010 0x1ef (str% "_CRT_INIT") false (ln f0 [(0x1010, 12, 68), (0x101c, 6, 68), (0x1022, 4, 69), (0x1026, 6, 71), (0x102c, 2, 74),
      (0x102e, 4, 71), (0x1032, 10, 72), (0x103c, 8, 120), (0x1044, 6, 72), (0x104a, 14, 122), (0x1058, 7, 122), (0x105f, 11, 120), (0x106a, 5, 120),
      (0x106f, 9, 124), (0x1078, 9, 124), (0x1081, 10, 126), (0x108b, 5, 135), (0x1090, 12, 136), (0x109c, 4, 136), (0x10a0, 9, 76), (0x10a9, 9, 79),
      (0x10b2, 7, 79), (0x10b9, 4, 79), (0x10bd, 2, 82), (0x10bf, 7, 90), (0x10c6, 10, 82), (0x10d0, 9, 85), (0x10d9, 7, 90), (0x10e0, 8, 82),
      (0x10e8, 5, 83), (0x10ed, 2, 80), (0x10ef, 7, 92), (0x10f6, 2, 92), (0x10f8, 9, 92), (0x1101, 2, 96), (0x1103, 8, 96), (0x110b, 2, 102),
      (0x110d, 9, 102), (0x1116, 8, 107), (0x111e, 10, 111), (0x1128, 5, 111), (0x112d, 13, 113), (0x113a, 7, 115), (0x1141, 5, 135),
      (0x1146, 7, 136), (0x114d, 3, 136), (0x1150, 2, 136), (0x1152, 6, 136), (0x1158, 5, 135), (0x115d, 19, 136), (0x1170, 12, 130),
      (0x117c, 6, 131), (0x1182, 3, 132), (0x1185, 5, 135), (0x118a, 6, 132), (0x1190, 16, 87), (0x11a0, 16, 109), (0x11b0, 14, 100), (0x11be, 6, 98),
      (0x11c4, 12, 100), (0x11d0, 19, 104), (0x11e3, 13, 105), (0x11f0, 15, 94)]),
    fn 0x1000 0xc (str% "pre_c_init") false (ln f0 [(0x1000, 7, 64), (0x1007, 5, 64)]),
    fn 0x1540 0x1f (str% "__main") false (ln f1 [(0x1540, 10, 55), (0x154a, 6, 60), (0x1550, 10, 57), (0x155a, 5, 58)]),
    fn 0x14d0 0x6a (str% "__do_global_ctors") false (ln f1 [(0x14d0, 6, 33), (0x14d6, 7, 34), (0x14dd, 5, 34), (0x14e2, 5, 37), (0x14e7, 4, 42),
      (0x14eb, 5, 42), (0x14f0, 7, 42), (0x14f7, 9, 42), (0x1500, 2, 44), (0x1502, 9, 42), (0x150b, 7, 47), (0x1512, 6, 48), (0x1518, 8, 47),
      (0x1520, 8, 39), (0x1528, 6, 39), (0x152e, 5, 39), (0x1533, 3, 39), (0x1536, 4, 39)]),
    fn 0x1490 0x3a (str% "__do_global_dtors") false (ln f1 [(0x1490, 4, 21), (0x1494, 20, 24), (0x14a8, 2, 26), (0x14aa, 11, 27), (0x14b5, 4, 24),
      (0x14b9, 7, 27), (0x14c0, 5, 24), (0x14c5, 5, 29)]),
    fn 0x1560 0x2f (str% "__dyn_tls_dtor") false (ln f2 [(0x1560, 4, 137), (0x1564, 9, 143), (0x156d, 19, 168), (0x1580, 5, 166), (0x1585, 10, 168)]),
    fn 0x1620 0x3 (str% "__tlregdtor") false (ln f2 [(0x1620, 3, 133)]),
    fn 0x1590 0x81 (str% "__dyn_tls_init") false (ln f2 [(0x1590, 6, 77), (0x1596, 7, 82), (0x159d, 5, 82), (0x15a2, 6, 83), (0x15a8, 5, 85),
      (0x15ad, 5, 87), (0x15b2, 14, 101), (0x15c0, 7, 76), (0x15c7, 17, 76), (0x15d8, 3, 76), (0x15db, 5, 76), (0x15e0, 2, 76), (0x15e2, 4, 76),
      (0x15e6, 5, 76), (0x15eb, 21, 101), (0x1600, 5, 88), (0x1605, 12, 101)]),
    fn 0x1810 0x335 (str% "_pei386_runtime_relocator") false (ln f3 [(0x1810, 21, 485), (0x1825, 6, 491), (0x182b, 4, 491), (0x182f, 17, 511),
      (0x1840, 10, 493), (0x184a, 5, 495), (0x184f, 2, 496), (0x1851, 4, 496), (0x1855, 17, 496), (0x1866, 14, 500), (0x1874, 10, 497),
      (0x187e, 8, 496), (0x1886, 7, 496), (0x188d, 6, 500), (0x1893, 6, 500), (0x1899, 2, 500), (0x189b, 10, 500), (0x18a5, 10, 500),
      (0x18af, 3, 500), (0x18b2, 8, 500), (0x18ba, 3, 500), (0x18bd, 9, 500), (0x18c6, 4, 500), (0x18ca, 9, 500), (0x18d3, 7, 500), (0x18da, 22, 500),
      (0x18f0, 4, 500), (0x18f4, 16, 500), (0x1904, 3, 500), (0x1907, 7, 500), (0x190e, 4, 500), (0x1912, 2, 500), (0x1914, 23, 500),
      (0x192b, 8, 500), (0x1933, 3, 500), (0x1936, 4, 500), (0x193a, 9, 500), (0x1943, 2, 500), (0x1945, 4, 500), (0x1949, 4, 500), (0x194d, 3, 500),
      (0x1950, 4, 500), (0x1954, 3, 500), (0x1957, 3, 500), (0x195a, 9, 500), (0x1963, 20, 500), (0x1977, 4, 500), (0x197b, 17, 500),
      (0x198c, 3, 500), (0x198f, 7, 500), (0x1996, 4, 500), (0x199a, 2, 500), (0x199c, 26, 500), (0x19b6, 3, 500), (0x19b9, 4, 500), (0x19bd, 5, 500),
      (0x19c2, 4, 500), (0x19c6, 10, 500), (0x19d0, 14, 509), (0x19de, 7, 509), (0x19e5, 2, 509), (0x19e7, 9, 509), (0x19f0, 10, 509),
      (0x19fa, 3, 509), (0x19fd, 5, 509), (0x1a02, 13, 509), (0x1a0f, 3, 509), (0x1a12, 22, 509), (0x1a28, 8, 500), (0x1a30, 3, 500),
      (0x1a33, 11, 500), (0x1a3e, 4, 500), (0x1a42, 14, 500), (0x1a50, 9, 500), (0x1a59, 6, 500), (0x1a5f, 7, 500), (0x1a66, 4, 500),
      (0x1a6a, 2, 500), (0x1a6c, 9, 500), (0x1a75, 8, 500), (0x1a7d, 11, 500), (0x1a88, 6, 500), (0x1a8e, 3, 500), (0x1a91, 7, 500), (0x1a98, 3, 500),
      (0x1a9b, 7, 500), (0x1aa2, 4, 500), (0x1aa6, 2, 500), (0x1aa8, 25, 500), (0x1ac1, 8, 500), (0x1ac9, 15, 500), (0x1ad8, 9, 500),
      (0x1ae1, 15, 500), (0x1af0, 4, 500), (0x1af4, 3, 500), (0x1af7, 4, 500), (0x1afb, 3, 500), (0x1afe, 4, 500), (0x1b02, 8, 500), (0x1b0a, 4, 500),
      (0x1b0e, 10, 500), (0x1b18, 12, 500), (0x1b24, 20, 500), (0x1b38, 13, 500)]),
    fn 0x16a0 0x162 (str% "mark_section_writable") false (ln f3 [(0x16a0, 8, 184), (0x16a8, 7, 189), (0x16af, 3, 184), (0x16b2, 15, 189),
      (0x16c1, 15, 189), (0x16d0, 3, 191), (0x16d3, 5, 191), (0x16d8, 7, 192), (0x16df, 3, 192), (0x16e2, 9, 192), (0x16eb, 4, 189), (0x16ef, 9, 189),
      (0x16f8, 3, 195), (0x16fb, 8, 195), (0x1703, 9, 196), (0x170c, 7, 201), (0x1713, 11, 201), (0x171e, 4, 201), (0x1722, 6, 202), (0x1728, 5, 203),
      (0x172d, 3, 203), (0x1730, 6, 205), (0x1736, 4, 203), (0x173a, 7, 203), (0x1741, 5, 205), (0x1746, 5, 203), (0x174b, 6, 205), (0x1751, 9, 205),
      (0x175a, 4, 212), (0x175e, 3, 212), (0x1761, 5, 213), (0x1766, 3, 212), (0x1769, 5, 213), (0x176e, 7, 228), (0x1775, 8, 230), (0x177d, 3, 230),
      (0x1780, 3, 219), (0x1783, 5, 220), (0x1788, 5, 221), (0x178d, 15, 219), (0x179c, 7, 220), (0x17a3, 4, 220), (0x17a7, 3, 220), (0x17aa, 4, 221),
      (0x17ae, 6, 222), (0x17b4, 4, 222), (0x17b8, 6, 226), (0x17be, 7, 225), (0x17c5, 2, 226), (0x17c7, 9, 225), (0x17d0, 7, 189), (0x17d7, 27, 207),
      (0x17f2, 16, 198)]),
    fn 0x1630 0x6a (str% "__report_error") false (ln f3 [(0x1630, 7, 85), (0x1637, 3, 85), (0x163a, 5, 148), (0x163f, 5, 150), (0x1644, 15, 85),
      (0x1653, 5, 148), (0x1658, 31, 150), (0x1677, 29, 151), (0x1694, 6, 157)]),
    fn 0x1cf0 0xe2 (str% "__mingw_TLScallback") false (ln f4 [(0x1cf0, 5, 125), (0x1cf5, 11, 126), (0x1d00, 6, 129), (0x1d06, 8, 129),
      (0x1d0e, 10, 131), (0x1d18, 16, 157), (0x1d28, 5, 126), (0x1d2d, 6, 153), (0x1d33, 9, 153), (0x1d3c, 4, 153), (0x1d40, 5, 150),
      (0x1d45, 11, 157), (0x1d50, 6, 134), (0x1d56, 4, 134), (0x1d5a, 6, 135), (0x1d60, 5, 135), (0x1d65, 7, 138), (0x1d6c, 12, 138),
      (0x1d78, 3, 140), (0x1d7b, 4, 140), (0x1d7f, 5, 141), (0x1d84, 5, 138), (0x1d89, 7, 146), (0x1d90, 11, 144), (0x1d9b, 10, 145),
      (0x1da5, 11, 146), (0x1db0, 5, 134), (0x1db5, 11, 134), (0x1dc0, 7, 130), (0x1dc7, 6, 130), (0x1dcd, 5, 130)]),
    fn 0x1c60 0x89 (str% "___w64_mingwthr_remove_key_dtor") false (ln f4 [(0x1c60, 7, 66), (0x1c67, 6, 70), (0x1c6d, 2, 66), (0x1c6f, 4, 70),
      (0x1c73, 13, 96), (0x1c80, 10, 73), (0x1c8a, 6, 73), (0x1c90, 7, 76), (0x1c97, 5, 78), (0x1c9c, 4, 75), (0x1ca0, 8, 78), (0x1ca8, 3, 78),
      (0x1cab, 2, 80), (0x1cad, 2, 80), (0x1caf, 4, 83), (0x1cb3, 2, 80), (0x1cb5, 5, 82), (0x1cba, 4, 85), (0x1cbe, 5, 87), (0x1cc3, 9, 94),
      (0x1ccc, 7, 96), (0x1cd3, 13, 96), (0x1ce0, 9, 83)]),
    fn 0x1bd0 0x81 (str% "___w64_mingwthr_add_key_dtor") false (ln f4 [(0x1bd0, 9, 43), (0x1bd9, 6, 46), (0x1bdf, 5, 43), (0x1be4, 4, 46),
      (0x1be8, 6, 62), (0x1bee, 1, 62), (0x1bef, 9, 62), (0x1bf8, 5, 48), (0x1bfd, 5, 48), (0x1c02, 8, 48), (0x1c0a, 5, 49), (0x1c0f, 7, 55),
      (0x1c16, 2, 52), (0x1c18, 4, 53), (0x1c1c, 9, 55), (0x1c25, 7, 57), (0x1c2c, 3, 60), (0x1c2f, 7, 58), (0x1c36, 4, 57), (0x1c3a, 6, 60),
      (0x1c40, 2, 61), (0x1c42, 5, 62), (0x1c47, 1, 62), (0x1c48, 1, 62), (0x1c49, 3, 62), (0x1c4c, 3, 50), (0x1c4f, 2, 50)]),
    fn 0x1b50 0x71 (str% "__mingwthr_run_key_dtors") false (ln f4 [(0x1b50, 11, 99), (0x1b5b, 16, 105), (0x1b6b, 7, 107), (0x1b72, 22, 107),
      (0x1b88, 2, 109), (0x1b8a, 5, 109), (0x1b8f, 2, 110), (0x1b91, 4, 112), (0x1b95, 5, 112), (0x1b9a, 4, 113), (0x1b9e, 5, 113), (0x1ba3, 4, 115),
      (0x1ba7, 5, 107), (0x1bac, 3, 118), (0x1baf, 5, 119), (0x1bb4, 6, 119), (0x1bba, 7, 118)]),
    fn 0x2100 0xbe (str% "__mingw_enum_import_library_names") false (ln f5 [(0x2100, 7, 201), (0x2107, 3, 202), (0x210a, 8, 201), (0x2112, 4, 201),
      (0x2116, 3, 201), (0x2119, 9, 201), (0x2122, 14, 230), (0x2130, 9, 201), (0x2139, 7, 206), (0x2140, 4, 207), (0x2144, 5, 210), (0x2149, 5, 210),
      (0x214e, 5, 210), (0x2153, 21, 210), (0x2168, 7, 210), (0x216f, 5, 210), (0x2174, 4, 210), (0x2178, 5, 210), (0x217d, 4, 210), (0x2181, 5, 210),
      (0x2186, 3, 202), (0x2189, 7, 230), (0x2190, 3, 214), (0x2193, 5, 215), (0x2198, 3, 225), (0x219b, 4, 226), (0x219f, 9, 220), (0x21a8, 7, 220),
      (0x21af, 4, 223), (0x21b3, 4, 224), (0x21b7, 3, 224), (0x21ba, 3, 230), (0x21bd, 1, 230)]),
    fn 0x2070 0x89 (str% "_IsNonwritableInCurrentImage") false (ln f5 [(0x2070, 7, 179), (0x2077, 2, 180), (0x2079, 7, 179), (0x2080, 4, 179),
      (0x2084, 3, 179), (0x2087, 9, 179), (0x2090, 8, 186), (0x2098, 9, 179), (0x20a1, 3, 181), (0x20a4, 5, 182), (0x20a9, 5, 182), (0x20ae, 5, 182),
      (0x20b3, 21, 182), (0x20c8, 7, 182), (0x20cf, 5, 182), (0x20d4, 3, 182), (0x20d7, 5, 182), (0x20dc, 4, 182), (0x20e0, 5, 182), (0x20e5, 2, 180),
      (0x20e7, 9, 186), (0x20f0, 8, 185), (0x20f8, 1, 186)]),
    fn 0x2030 0x36 (str% "_GetPEImageBase") false (ln f5 [(0x2030, 7, 164), (0x2037, 3, 165), (0x203a, 7, 164), (0x2041, 4, 164), (0x2045, 3, 164),
      (0x2048, 8, 164), (0x2050, 8, 167), (0x2058, 10, 166), (0x2062, 4, 167)]),
    fn 0x1fc0 0x6b (str% "_FindPESectionExec") false (ln f5 [(0x1fc0, 7, 138), (0x1fc7, 2, 139), (0x1fc9, 8, 138), (0x1fd1, 4, 138), (0x1fd5, 3, 138),
      (0x1fd8, 8, 138), (0x1fe0, 8, 155), (0x1fe8, 8, 138), (0x1ff0, 4, 143), (0x1ff4, 5, 143), (0x1ff9, 4, 144), (0x1ffd, 19, 144), (0x2010, 6, 147),
      (0x2016, 5, 149), (0x201b, 4, 151), (0x201f, 4, 145), (0x2023, 5, 144), (0x2028, 2, 139), (0x202a, 1, 155)]),
    fn 0x1f80 0x39 (str% "__mingw_GetSectionCount") false (ln f5 [(0x1f80, 7, 118), (0x1f87, 3, 119), (0x1f8a, 7, 118), (0x1f91, 4, 118),
      (0x1f95, 3, 118), (0x1f98, 8, 118), (0x1fa0, 8, 124), (0x1fa8, 8, 118), (0x1fb0, 5, 123), (0x1fb5, 3, 124), (0x1fb8, 1, 124)]),
    fn 0x1f00 0x78 (str% "__mingw_GetSectionForAddress") false (ln f5 [(0x1f00, 7, 104), (0x1f07, 2, 105), (0x1f09, 7, 104), (0x1f10, 4, 104),
      (0x1f14, 3, 104), (0x1f17, 9, 104), (0x1f20, 8, 109), (0x1f28, 9, 104), (0x1f31, 5, 108), (0x1f36, 3, 107), (0x1f39, 5, 108), (0x1f3e, 5, 108),
      (0x1f43, 21, 108), (0x1f58, 7, 108), (0x1f5f, 5, 108), (0x1f64, 3, 108), (0x1f67, 5, 108), (0x1f6c, 4, 108), (0x1f70, 5, 108), (0x1f75, 2, 105),
      (0x1f77, 1, 109)]),
    fn 0x1e60 0x9f (str% "_FindPESectionByName") false (ln f5 [(0x1e60, 8, 68), (0x1e68, 3, 68), (0x1e6b, 5, 75), (0x1e70, 6, 75), (0x1e76, 7, 79),
      (0x1e7d, 3, 76), (0x1e80, 7, 79), (0x1e87, 4, 79), (0x1e8b, 3, 79), (0x1e8e, 8, 79), (0x1e96, 8, 79), (0x1e9e, 4, 84), (0x1ea2, 5, 84),
      (0x1ea7, 4, 85), (0x1eab, 21, 85), (0x1ec0, 4, 86), (0x1ec4, 5, 85), (0x1ec9, 17, 88), (0x1eda, 4, 88), (0x1ede, 8, 92), (0x1ee6, 10, 92),
      (0x1ef0, 3, 76), (0x1ef3, 8, 92), (0x1efb, 4, 92)]),
    fn 0x1de0 0x2c (str% "_ValidateImageBase") false (ln f5 [(0x1de0, 2, 32), (0x1de2, 7, 31), (0x1de9, 4, 24), (0x1ded, 3, 24), (0x1df0, 8, 24),
      (0x1df8, 8, 40), (0x1e00, 11, 24), (0x1e0b, 1, 40)]),
    fn 0x1e10 0x48 (str% "_FindPESection") false (ln f5 [(0x1e10, 4, 51), (0x1e14, 3, 51), (0x1e17, 4, 53), (0x1e1b, 5, 53), (0x1e20, 4, 54),
      (0x1e24, 20, 54), (0x1e38, 7, 57), (0x1e3f, 5, 57), (0x1e44, 3, 58), (0x1e47, 5, 58), (0x1e4c, 4, 55), (0x1e50, 5, 54), (0x1e55, 2, 61),
      (0x1e57, 1, 62)]),
    fn 0x21c0 0x3 (str% "_fpreset") false (ln f6 [(0x21c0, 2, 19), (0x21c2, 1, 24)]),
    fn 0x2210 0x6 (str% "DllEntryPoint") false (ln f7 [(0x2210, 6, 18)]),
    fn 0x2220 0x6 (str% "DllMain") false (ln f8 [(0x2220, 6, 10)]),
    fn 0x2230 0x1f (str% "__acrt_iob_func") false (ln f9 [(0x2230, 5, 10), (0x2235, 2, 10), (0x2237, 5, 11), (0x223c, 10, 11), (0x2246, 3, 11),
      (0x2249, 5, 12), (0x224e, 1, 12)]),
    fn 0x2360 0x71 (str% "_execute_onexit_table") false (ln f10 [(0x2360, 8, 56), (0x2368, 3, 56), (0x236b, 5, 59), (0x2370, 5, 59), (0x2375, 3, 60),
      (0x2378, 4, 61), (0x237c, 8, 62), (0x2384, 8, 62), (0x238c, 5, 63), (0x2391, 7, 62), (0x2398, 5, 63), (0x239d, 5, 65), (0x23a2, 4, 67),
      (0x23a6, 5, 67), (0x23ab, 3, 68), (0x23ae, 5, 68), (0x23b3, 2, 69), (0x23b5, 4, 67), (0x23b9, 5, 67), (0x23be, 8, 71), (0x23c6, 7, 73),
      (0x23cd, 1, 73), (0x23ce, 2, 73), (0x23d0, 1, 73)]),
    fn 0x2280 0xd7 (str% "_register_onexit_function") false (ln f10 [(0x2280, 8, 23), (0x2288, 6, 23), (0x228e, 9, 24), (0x2297, 5, 26),
      (0x229c, 5, 26), (0x22a1, 6, 28), (0x22a7, 4, 38), (0x22ab, 4, 38), (0x22af, 5, 38), (0x22b4, 4, 50), (0x22b8, 5, 51), (0x22bd, 4, 50),
      (0x22c1, 3, 50), (0x22c4, 5, 51), (0x22c9, 2, 52), (0x22cb, 5, 53), (0x22d0, 2, 53), (0x22d2, 6, 53), (0x22d8, 3, 39), (0x22db, 6, 39),
      (0x22e1, 7, 39), (0x22e8, 12, 40), (0x22f4, 5, 41), (0x22f9, 3, 45), (0x22fc, 4, 46), (0x2300, 3, 47), (0x2303, 13, 47), (0x2310, 15, 29),
      (0x231f, 3, 29), (0x2322, 3, 29), (0x2325, 5, 30), (0x232a, 4, 34), (0x232e, 7, 35), (0x2335, 9, 35), (0x233e, 7, 24), (0x2345, 10, 31),
      (0x234f, 8, 32)]),
    fn 0x2250 0x25 (str% "_initialize_onexit_table") false (ln f10 [(0x2250, 5, 17), (0x2255, 2, 19), (0x2257, 8, 18), (0x225f, 8, 18),
      (0x2267, 7, 18), (0x226e, 1, 20), (0x226f, 5, 17), (0x2274, 1, 20)])]

/-- The exported symbols (their sizes are not used in what is printed, and left at 0). -/
def publics : List Collector.Public :=
  [
    ⟨some (str% "_Z10test_arrayPcPA34_iPA34_A56_NSt7__cxx1112basic_stringIcSt11char_traitsIcESaIcEEEPA34_A56_A78_Pd"), 0x1456, 0⟩,
    ⟨some (str% "_Z23test_array_empty_structP5EmptyPA34_S_PA34_A56_S_PA34_A56_A78_S_"), 0x1471, 0⟩,
    ⟨some (str% "_Z5test1Pi"), 0x13a0, 0⟩,
    ⟨some (str% "_Z5test2ij"), 0x13b5, 0⟩,
    ⟨some (str% "_Z5test3ijs"), 0x13c2, 0⟩,
    ⟨some (str% "_Z5test4ijtPd"), 0x13d6, 0⟩,
    ⟨some (str% "_Z5test5PijtPKdNSt7__cxx1112basic_stringIcSt11char_traitsIcESaIcEEE"), 0x13ee, 0⟩,
    ⟨some (str% "_Z5test6PKdRKNSt7__cxx1112basic_stringIcSt11char_traitsIcESaIcEEEOS6_"), 0x1407, 0⟩,
    ⟨some (str% "_Z5test7PFvijtPdE"), 0x141a, 0⟩,
    ⟨some (str% "_Z5test8PFiPFvijtPdEE"), 0x1429, 0⟩,
    ⟨some (str% "_Z5test9PFiPFiPFvijtPdEEE"), 0x1438, 0⟩,
    ⟨some (str% "_Z6test10RPc"), 0x1447, 0⟩]

/-- The exception table. -/
def exceptions : List Collector.ExcEntry :=
  [
    ⟨0x1000, 0x100c⟩, ⟨0x1010, 0x11ff⟩, ⟨0x1200, 0x1344⟩, ⟨0x1350, 0x1362⟩, ⟨0x1370, 0x137f⟩, ⟨0x1380, 0x138c⟩,
    ⟨0x1390, 0x1391⟩, ⟨0x13a0, 0x13b5⟩, ⟨0x13b5, 0x13c2⟩, ⟨0x13c2, 0x13d6⟩, ⟨0x13d6, 0x13ee⟩, ⟨0x13ee, 0x1407⟩,
    ⟨0x1407, 0x141a⟩, ⟨0x141a, 0x1429⟩, ⟨0x1429, 0x1438⟩, ⟨0x1438, 0x1447⟩, ⟨0x1447, 0x1456⟩, ⟨0x1456, 0x1471⟩,
    ⟨0x1471, 0x148c⟩, ⟨0x1490, 0x14ca⟩, ⟨0x14d0, 0x153a⟩, ⟨0x1540, 0x155f⟩, ⟨0x1560, 0x158f⟩, ⟨0x1590, 0x1611⟩,
    ⟨0x1620, 0x1623⟩, ⟨0x1630, 0x169a⟩, ⟨0x16a0, 0x1802⟩, ⟨0x1810, 0x1b45⟩, ⟨0x1b50, 0x1bc1⟩, ⟨0x1bd0, 0x1c51⟩,
    ⟨0x1c60, 0x1ce9⟩, ⟨0x1cf0, 0x1dd2⟩, ⟨0x1de0, 0x1e0c⟩, ⟨0x1e10, 0x1e58⟩, ⟨0x1e60, 0x1eff⟩, ⟨0x1f00, 0x1f78⟩,
    ⟨0x1f80, 0x1fb9⟩, ⟨0x1fc0, 0x202b⟩, ⟨0x2030, 0x2066⟩, ⟨0x2070, 0x20f9⟩, ⟨0x2100, 0x21be⟩, ⟨0x21c0, 0x21c3⟩,
    ⟨0x2210, 0x2216⟩, ⟨0x2220, 0x2226⟩, ⟨0x2230, 0x224f⟩, ⟨0x2250, 0x2275⟩, ⟨0x2280, 0x2357⟩, ⟨0x2360, 0x23d1⟩,
    ⟨0x24a0, 0x24a5⟩]

/-- The file. -/
def object : ObjInput where
  format := .pe
  debugId := str% "000000000000000000000000000000000"
  codeId := some (str% "63cf138f21000")
  arch := str% "x86_64"
  hasDebugInfo := true
  name := none
  functions := .ok (functions.map some)
  exceptions := some exceptions
  publics := publics
  unwind := none
  kind := .pe

/-- Parts of `expected`. -/
def e0 : List Str :=
  [
    str% "MODULE windows x86_64 000000000000000000000000000000000 basic64-dwarf.dll\nINFO CODE_ID 63CF138F21000 basic64-dwarf.dll\n",
    str% "FILE 0 /mxe/tmp-gcc-x86_64-w64-mingw32.static/gcc-11.3.0.build_/mingw-w64-v10.0.0/mingw-w64-crt/crt/crtdll.c\n",
    str% "FILE 1 /mxe/tmp-gcc-x86_64-w64-mingw32.static/gcc-11.3.0.build_/mingw-w64-v10.0.0/mingw-w64-crt/crt/gccmain.c\n",
    str% "FILE 2 /mxe/tmp-gcc-x86_64-w64-mingw32.static/gcc-11.3.0.build_/mingw-w64-v10.0.0/mingw-w64-crt/crt/tlssup.c\n",
    str% "FILE 3 /mxe/tmp-gcc-x86_64-w64-mingw32.static/gcc-11.3.0.build_/mingw-w64-v10.0.0/mingw-w64-crt/crt/pseudo-reloc.c\n",
    str% "FILE 4 /mxe/tmp-gcc-x86_64-w64-mingw32.static/gcc-11.3.0.build_/mingw-w64-v10.0.0/mingw-w64-crt/crt/tlsthrd.c\n"]
def e1 : List Str :=
  [
    str% "FILE 5 /mxe/tmp-gcc-x86_64-w64-mingw32.static/gcc-11.3.0.build_/mingw-w64-v10.0.0/mingw-w64-crt/crt/pesect.c\n",
    str% "FILE 6 /mxe/tmp-gcc-x86_64-w64-mingw32.static/gcc-11.3.0.build_/mingw-w64-v10.0.0/mingw-w64-crt/crt/CRT_fp10.c\n",
    str% "FILE 7 /mxe/tmp-gcc-x86_64-w64-mingw32.static/gcc-11.3.0.build_/mingw-w64-v10.0.0/mingw-w64-crt/crt/dllentry.c\n",
    str% "FILE 8 /mxe/tmp-gcc-x86_64-w64-mingw32.static/gcc-11.3.0.build_/mingw-w64-v10.0.0/mingw-w64-crt/crt/dllmain.c\n",
    str% "FILE 9 /mxe/tmp-gcc-x86_64-w64-mingw32.static/gcc-11.3.0.build_/mingw-w64-v10.0.0/mingw-w64-crt/stdio/acrt_iob_func.c\n",
    str% "FILE 10 /mxe/tmp-gcc-x86_64-w64-mingw32.static/gcc-11.3.0.build_/mingw-w64-v10.0.0/mingw-w64-crt/misc/onexit_table.c\n"]
def e2 : List Str :=
  [
    [],
    str% "FUNC 1000 c 0 pre_c_init\n1000 c 64 0\n",
    str% "FUNC 1010 1ef 0 _CRT_INIT\n1010 12 68 0\n1022 4 69 0\n1026 6 71 0\n102c 2 74 0\n102e 4 71 0\n1032 a 72 0\n103c 8 120 0\n1044 6 72 0\n" ++
      str% "104a 15 122 0\n105f 10 120 0\n106f 12 124 0\n1081 a 126 0\n108b 5 135 0\n1090 10 136 0\n10a0 9 76 0\n10a9 14 79 0\n10bd 2 82 0\n" ++
      str% "10bf 7 90 0\n10c6 a 82 0\n10d0 9 85 0\n10d9 7 90 0\n10e0 8 82 0\n10e8 5 83 0\n10ed 2 80 0\n10ef 12 92 0\n1101 a 96 0\n110b b 102 0\n" ++
      str% "1116 8 107 0\n111e f 111 0\n112d d 113 0\n113a 7 115 0\n1141 5 135 0\n1146 12 136 0\n1158 5 135 0\n115d 13 136 0\n1170 c 130 0\n" ++
      str% "117c 6 131 0\n1182 3 132 0\n1185 5 135 0\n118a 6 132 0\n1190 10 87 0\n11a0 10 109 0\n11b0 e 100 0\n11be 6 98 0\n11c4 c 100 0\n" ++
      str% "11d0 13 104 0\n11e3 d 105 0\n11f0 f 94 0\n",
    str% "FUNC 1200 144 0 __DllMainCRTStartup\n1200 c 160 0\n120c 7 163 0\n1213 3 160 0\n1216 2 163 0\n1218 6 160 0\n121e e 164 0\n122c 5 169 0\n" ++
      str% "1231 d 185 0\n123e e 194 0\n124c 9 195 0\n1255 3 194 0\n1258 9 195 0\n1261 3 196 0\n1264 3 201 0\n1267 6 199 0\n126d 13 201 0\n" ++
      str% "1280 5 169 0\n1285 5 170 0\n128a 9 172 0\n1293 5 170 0\n1298 5 172 0\n129d 4 173 0\n12a1 11 175 0\n12b2 4 176 0\n12b6 6 183 0\n" ++
      str% "12bc 5 184 0\n12c1 13 185 0\n12d4 4 186 0\n12d8 d 188 0\n12e5 d 189 0\n12f2 d 190 0\n12ff 9 192 0\n1308 8 185 0\n1310 10 192 0\n" ++
      str% "1320 c 178 0\n132c 13 185 0\n133f 5 192 0\n",
    str% "FUNC 1350 12 0 DllMainCRTStartup\n1350 d 148 0\n135d 5 155 0\n",
    str% "FUNC 1370 f 0 atexit\n1370 3 205 0\n1373 c 206 0\n"]
def e3 : List Str :=
  [
    str% "FUNC 1380 c 0 <unknown in basic64-dwarf.dll>\n",
    str% "FUNC 1390 1 0 <unknown in basic64-dwarf.dll>\n",
    str% "FUNC 13a0 15 0 Z5test1Pi\n",
    str% "FUNC 13b5 d 0 Z5test2ij\n",
    str% "FUNC 13c2 14 0 Z5test3ijs\n",
    str% "FUNC 13d6 18 0 Z5test4ijtPd\n"]
def e4 : List Str :=
  [
    str% "FUNC 13ee 19 0 Z5test5PijtPKdNSt7__cxx1112basic_stringIcSt11char_traitsIcESaIcEEE\n",
    str% "FUNC 1407 13 0 Z5test6PKdRKNSt7__cxx1112basic_stringIcSt11char_traitsIcESaIcEEEOS6_\n",
    str% "FUNC 141a f 0 Z5test7PFvijtPdE\n",
    str% "FUNC 1429 f 0 Z5test8PFiPFvijtPdEE\n",
    str% "FUNC 1438 f 0 Z5test9PFiPFiPFvijtPdEEE\n",
    str% "FUNC 1447 f 0 Z6test10RPc\n"]
def e5 : List Str :=
  [
    str% "FUNC 1456 1b 0 Z10test_arrayPcPA34_iPA34_A56_NSt7__cxx1112basic_stringIcSt11char_traitsIcESaIcEEEPA34_A56_A78_Pd\n",
    str% "FUNC 1471 1b 0 Z23test_array_empty_structP5EmptyPA34_S_PA34_A56_S_PA34_A56_A78_S_\n",
    str% "FUNC 1490 3a 0 __do_global_dtors\n1490 4 21 1\n1494 14 24 1\n14a8 2 26 1\n14aa b 27 1\n14b5 4 24 1\n14b9 7 27 1\n14c0 5 24 1\n14c5 5 29 1\n",
    str% "FUNC 14d0 6a 0 __do_global_ctors\n14d0 6 33 1\n14d6 c 34 1\n14e2 5 37 1\n14e7 19 42 1\n1500 2 44 1\n1502 9 42 1\n150b 7 47 1\n1512 6 48 1\n" ++
      str% "1518 8 47 1\n1520 1a 39 1\n",
    str% "FUNC 1540 1f 0 __main\n1540 a 55 1\n154a 6 60 1\n1550 a 57 1\n155a 5 58 1\n",
    str% "FUNC 1560 2f 0 __dyn_tls_dtor\n1560 4 137 2\n1564 9 143 2\n156d 13 168 2\n1580 5 166 2\n1585 a 168 2\n"]
def e6 : List Str :=
  [
    str% "FUNC 1590 81 0 __dyn_tls_init\n1590 6 77 2\n1596 c 82 2\n15a2 6 83 2\n15a8 5 85 2\n15ad 5 87 2\n15b2 e 101 2\n15c0 2b 76 2\n15eb 15 101 2\n" ++
      str% "1600 5 88 2\n1605 c 101 2\n",
    str% "FUNC 1620 3 0 __tlregdtor\n1620 3 133 2\n",
    str% "FUNC 1630 6a 0 __report_error\n1630 a 85 3\n163a 5 148 3\n163f 5 150 3\n1644 f 85 3\n1653 5 148 3\n1658 1f 150 3\n1677 1d 151 3\n" ++
      str% "1694 6 157 3\n",
    str% "FUNC 16a0 162 0 mark_section_writable\n16a0 8 184 3\n16a8 7 189 3\n16af 3 184 3\n16b2 1e 189 3\n16d0 8 191 3\n16d8 13 192 3\n16eb d 189 3\n" ++
      str% "16f8 b 195 3\n1703 9 196 3\n170c 16 201 3\n1722 6 202 3\n1728 8 203 3\n1730 6 205 3\n1736 b 203 3\n1741 5 205 3\n1746 5 203 3\n" ++
      str% "174b f 205 3\n175a 7 212 3\n1761 5 213 3\n1766 3 212 3\n1769 5 213 3\n176e 7 228 3\n1775 b 230 3\n1780 3 219 3\n1783 5 220 3\n1788 5 221 3\n" ++
      str% "178d f 219 3\n179c e 220 3\n17aa 4 221 3\n17ae a 222 3\n17b8 6 226 3\n17be 7 225 3\n17c5 2 226 3\n17c7 9 225 3\n17d0 7 189 3\n" ++
      str% "17d7 1b 207 3\n17f2 10 198 3\n",
    str% "FUNC 1810 335 0 _pei386_runtime_relocator\n1810 15 485 3\n1825 a 491 3\n182f 11 511 3\n1840 a 493 3\n184a 5 495 3\n184f 17 496 3\n" ++
      str% "1866 e 500 3\n1874 a 497 3\n187e f 496 3\n188d 143 500 3\n19d0 58 509 3\n1a28 11d 500 3\n",
    str% "FUNC 1b50 71 0 __mingwthr_run_key_dtors\n1b50 b 99 4\n1b5b 10 105 4\n1b6b 1d 107 4\n1b88 7 109 4\n1b8f 2 110 4\n1b91 9 112 4\n1b9a 9 113 4\n" ++
      str% "1ba3 4 115 4\n1ba7 5 107 4\n1bac 3 118 4\n1baf b 119 4\n1bba 7 118 4\n"]
def e7 : List Str :=
  [
    str% "FUNC 1bd0 81 0 ___w64_mingwthr_add_key_dtor\n1bd0 9 43 4\n1bd9 6 46 4\n1bdf 5 43 4\n1be4 4 46 4\n1be8 10 62 4\n1bf8 12 48 4\n1c0a 5 49 4\n" ++
      str% "1c0f 7 55 4\n1c16 2 52 4\n1c18 4 53 4\n1c1c 9 55 4\n1c25 7 57 4\n1c2c 3 60 4\n1c2f 7 58 4\n1c36 4 57 4\n1c3a 6 60 4\n1c40 2 61 4\n" ++
      str% "1c42 a 62 4\n1c4c 5 50 4\n",
    str% "FUNC 1c60 89 0 ___w64_mingwthr_remove_key_dtor\n1c60 7 66 4\n1c67 6 70 4\n1c6d 2 66 4\n1c6f 4 70 4\n1c73 d 96 4\n1c80 10 73 4\n1c90 7 76 4\n" ++
      str% "1c97 5 78 4\n1c9c 4 75 4\n1ca0 b 78 4\n1cab 4 80 4\n1caf 4 83 4\n1cb3 2 80 4\n1cb5 5 82 4\n1cba 4 85 4\n1cbe 5 87 4\n1cc3 9 94 4\n" ++
      str% "1ccc 14 96 4\n1ce0 9 83 4\n",
    str% "FUNC 1cf0 e2 0 __mingw_TLScallback\n1cf0 5 125 4\n1cf5 b 126 4\n1d00 e 129 4\n1d0e a 131 4\n1d18 10 157 4\n1d28 5 126 4\n1d2d 13 153 4\n" ++
      str% "1d40 5 150 4\n1d45 b 157 4\n1d50 a 134 4\n1d5a b 135 4\n1d65 13 138 4\n1d78 7 140 4\n1d7f 5 141 4\n1d84 5 138 4\n1d89 7 146 4\n" ++
      str% "1d90 b 144 4\n1d9b a 145 4\n1da5 b 146 4\n1db0 10 134 4\n1dc0 12 130 4\n",
    str% "FUNC 1de0 2c 0 _ValidateImageBase\n1de0 2 32 5\n1de2 7 31 5\n1de9 f 24 5\n1df8 8 40 5\n1e00 b 24 5\n1e0b 1 40 5\n",
    str% "FUNC 1e10 48 0 _FindPESection\n1e10 7 51 5\n1e17 9 53 5\n1e20 18 54 5\n1e38 c 57 5\n1e44 8 58 5\n1e4c 4 55 5\n1e50 5 54 5\n1e55 2 61 5\n" ++
      str% "1e57 1 62 5\n",
    str% "FUNC 1e60 9f 0 _FindPESectionByName\n1e60 b 68 5\n1e6b b 75 5\n1e76 7 79 5\n1e7d 3 76 5\n1e80 1e 79 5\n1e9e 9 84 5\n1ea7 19 85 5\n" ++
      str% "1ec0 4 86 5\n1ec4 5 85 5\n1ec9 15 88 5\n1ede 12 92 5\n1ef0 3 76 5\n1ef3 c 92 5\n"]
def e8 : List Str :=
  [
    str% "FUNC 1f00 78 0 __mingw_GetSectionForAddress\n1f00 7 104 5\n1f07 2 105 5\n1f09 17 104 5\n1f20 8 109 5\n1f28 9 104 5\n1f31 5 108 5\n" ++
      str% "1f36 3 107 5\n1f39 3c 108 5\n1f75 2 105 5\n1f77 1 109 5\n",
    str% "FUNC 1f80 39 0 __mingw_GetSectionCount\n1f80 7 118 5\n1f87 3 119 5\n1f8a 16 118 5\n1fa0 8 124 5\n1fa8 8 118 5\n1fb0 5 123 5\n1fb5 4 124 5\n",
    str% "FUNC 1fc0 6b 0 _FindPESectionExec\n1fc0 7 138 5\n1fc7 2 139 5\n1fc9 17 138 5\n1fe0 8 155 5\n1fe8 8 138 5\n1ff0 9 143 5\n1ff9 17 144 5\n" ++
      str% "2010 6 147 5\n2016 5 149 5\n201b 4 151 5\n201f 4 145 5\n2023 5 144 5\n2028 2 139 5\n202a 1 155 5\n",
    str% "FUNC 2030 36 0 _GetPEImageBase\n2030 7 164 5\n2037 3 165 5\n203a 16 164 5\n2050 8 167 5\n2058 a 166 5\n2062 4 167 5\n",
    str% "FUNC 2070 89 0 _IsNonwritableInCurrentImage\n2070 7 179 5\n2077 2 180 5\n2079 17 179 5\n2090 8 186 5\n2098 9 179 5\n20a1 3 181 5\n" ++
      str% "20a4 41 182 5\n20e5 2 180 5\n20e7 9 186 5\n20f0 8 185 5\n20f8 1 186 5\n",
    str% "FUNC 2100 be 0 __mingw_enum_import_library_names\n2100 7 201 5\n2107 3 202 5\n210a 18 201 5\n2122 e 230 5\n2130 9 201 5\n2139 7 206 5\n" ++
      str% "2140 4 207 5\n2144 42 210 5\n2186 3 202 5\n2189 7 230 5\n2190 3 214 5\n2193 5 215 5\n2198 3 225 5\n219b 4 226 5\n219f 10 220 5\n" ++
      str% "21af 4 223 5\n21b3 7 224 5\n21ba 4 230 5\n"]
def e9 : List Str :=
  [
    str% "FUNC 21c0 3 0 _fpreset\n21c0 2 19 6\n21c2 1 24 6\n",
    str% "FUNC 2210 6 0 DllEntryPoint\n2210 6 18 7\n",
    str% "FUNC 2220 6 0 DllMain\n2220 6 10 8\n",
    str% "FUNC 2230 1f 0 __acrt_iob_func\n2230 7 10 9\n2237 12 11 9\n2249 6 12 9\n",
    str% "FUNC 2250 25 0 _initialize_onexit_table\n2250 5 17 10\n2255 2 19 10\n2257 17 18 10\n226e 1 20 10\n226f 5 17 10\n2274 1 20 10\n",
    str% "FUNC 2280 d7 0 _register_onexit_function\n2280 e 23 10\n228e 9 24 10\n2297 a 26 10\n22a1 6 28 10\n22a7 d 38 10\n22b4 4 50 10\n22b8 5 51 10\n" ++
      str% "22bd 7 50 10\n22c4 5 51 10\n22c9 2 52 10\n22cb d 53 10\n22d8 10 39 10\n22e8 c 40 10\n22f4 5 41 10\n22f9 3 45 10\n22fc 4 46 10\n" ++
      str% "2300 10 47 10\n2310 15 29 10\n2325 5 30 10\n232a 4 34 10\n232e 10 35 10\n233e 7 24 10\n2345 a 31 10\n234f 8 32 10\n"]
def e10 : List Str :=
  [
    str% "FUNC 2360 71 0 _execute_onexit_table\n2360 b 56 10\n236b a 59 10\n2375 3 60 10\n2378 4 61 10\n237c 10 62 10\n238c 5 63 10\n2391 7 62 10\n" ++
      str% "2398 5 63 10\n239d 5 65 10\n23a2 9 67 10\n23ab 8 68 10\n23b3 2 69 10\n23b5 9 67 10\n23be 8 71 10\n23c6 b 73 10\n",
    str% "FUNC 24a0 5 0 <unknown in basic64-dwarf.dll>\n",
    str% "PUBLIC 24a5 0 <unknown in basic64-dwarf.dll>\n",
    []]

/-- `test_data/windows/basic64-dwarf.sym`, without the unwind records, in pieces (the last name changed). -/
def expected : List Str :=
  e0 ++ e1 ++ e2 ++ e3 ++ e4 ++ e5 ++ e6 ++ e7 ++ e8 ++ e9 ++ e10

/-- src/windows/pdb.rs:434-437 `test_basic64_dwarf`. -/
theorem basic64_dwarf : printed object (str% "basic64-dwarf.dll") = .ok expected.flatten :=
  printed_of_parts (by decide +kernel)

end Dll64

/-! ## `basic32-dwarf.dll` -/

namespace Dll32

/-- The compilation directory of all units. -/
def compDir : ByteSlice := comp (str% "/build/mingw-w64-crt/src/crt-i686-w64-mingw32")

/-- The source files. -/
def f0 : FileInfo := file 1 (str% "/build/mingw-w64-crt/src/mingw-w64-v10.0.0/mingw-w64-crt/crt") (str% "crtdll.c")
def f1 : FileInfo := file 2 (str% "/build/mingw-w64-crt/src/mingw-w64-v10.0.0/mingw-w64-crt/crt") (str% "gccmain.c")
def f2 : FileInfo := file 3 (str% "/build/mingw-w64-crt/src/mingw-w64-v10.0.0/mingw-w64-crt/crt") (str% "tlssup.c")
def f3 : FileInfo := file 4 (str% "/build/mingw-w64-crt/src/mingw-w64-v10.0.0/mingw-w64-crt/crt") (str% "pseudo-reloc.c")
def f4 : FileInfo := file 5 (str% "/build/mingw-w64-crt/src/mingw-w64-v10.0.0/mingw-w64-crt/crt") (str% "tlsthrd.c")
def f5 : FileInfo := file 6 (str% "/build/mingw-w64-crt/src/mingw-w64-v10.0.0/mingw-w64-crt/crt") (str% "pesect.c")
def f6 : FileInfo := file 7 (str% "/build/mingw-w64-crt/src/mingw-w64-v10.0.0/mingw-w64-crt/crt") (str% "CRT_fp10.c")
def f7 : FileInfo := file 8 (str% "/build/mingw-w64-crt/src/mingw-w64-v10.0.0/mingw-w64-crt/crt") (str% "dllentry.c")
def f8 : FileInfo := file 9 (str% "/build/mingw-w64-crt/src/mingw-w64-v10.0.0/mingw-w64-crt/crt") (str% "dllmain.c")
def f9 : FileInfo := file 10 (str% "/build/mingw-w64-crt/src/mingw-w64-v10.0.0/mingw-w64-crt/stdio") (str% "acrt_iob_func.c")
def f10 : FileInfo := file 11 (str% "/build/mingw-w64-crt/src/mingw-w64-v10.0.0/mingw-w64-crt/misc") (str% "onexit_table.c")

/-- A function. -/
def fn (a s : Nat) (name : Str) (mangled : Bool) (ls : List LineInfo) : Func := .mk a s ⟨name, mangled, .c⟩ compDir ls []

/-- The functions of the DWARF data. -/
def functions : List Func :=
  [
    fn 0x13e0 0x1b (str% "atexit") false (ln f0 [(0x13e0, 3, 205), (0x13e3, 20, 206), (0x13f7, 4, 207)]),
    fn 0x1220 0x189 (str% "__DllMainCRTStartup") false (ln f0 [(0x1220, 13, 160), (0x122d, 6, 163), (0x1233, 4, 164), (0x1237, 5, 164),
      (0x123c, 4, 164), (0x1240, 5, 169), (0x1245, 23, 185), (0x125c, 21, 194), (0x1271, 16, 195), (0x1281, 3, 195), (0x1284, 4, 195),
      (0x1288, 2, 196), (0x128a, 10, 199), (0x1294, 6, 201), (0x129a, 1, 201), (0x129b, 1, 201), (0x129c, 1, 201), (0x129d, 3, 201), (0x12a0, 5, 169),
      (0x12a5, 3, 170), (0x12a8, 11, 172), (0x12b3, 9, 170), (0x12bc, 5, 172), (0x12c1, 3, 172), (0x12c4, 4, 173), (0x12c8, 16, 175),
      (0x12d8, 5, 175), (0x12dd, 8, 176), (0x12e5, 9, 183), (0x12ee, 5, 184), (0x12f3, 25, 185), (0x130c, 8, 186), (0x1314, 20, 188),
      (0x1328, 3, 188), (0x132b, 23, 189), (0x1342, 23, 190), (0x1359, 7, 192), (0x1360, 10, 185), (0x136a, 22, 192), (0x1380, 11, 178),
      (0x138b, 20, 185), (0x139f, 5, 185), (0x13a4, 5, 192)]),
    fn 0x13b0 0x24 (str% "DllMainCRTStartup@12") true (ln f0 [(0x13b0, 3, 147), (0x13b3, 10, 148), (0x13bd, 17, 155), (0x13ce, 6, 156)]),
    fn 0x1020 0x1f1 (str% "_CRT_INIT@12") true (ln f0 [(0x1020, 6, 68), (0x1026, 4, 68), (0x102a, 4, 69), (0x102e, 6, 71), (0x1034, 4, 71),
      (0x1038, 3, 72), (0x103b, 7, 120), (0x1042, 6, 72), (0x1048, 8, 117), (0x1050, 13, 122), (0x105d, 3, 122), (0x1060, 12, 120), (0x106c, 4, 120),
      (0x1070, 5, 124), (0x1075, 9, 124), (0x107e, 12, 126), (0x108a, 5, 135), (0x108f, 17, 136), (0x10a0, 9, 76), (0x10a9, 6, 79), (0x10af, 6, 90),
      (0x10b5, 3, 79), (0x10b8, 2, 82), (0x10ba, 6, 82), (0x10c0, 8, 85), (0x10c8, 9, 90), (0x10d1, 3, 90), (0x10d4, 10, 82), (0x10de, 4, 83),
      (0x10e2, 2, 80), (0x10e4, 5, 92), (0x10e9, 9, 92), (0x10f2, 5, 96), (0x10f7, 8, 96), (0x10ff, 5, 102), (0x1104, 9, 102), (0x110d, 8, 107),
      (0x1115, 5, 111), (0x111a, 4, 111), (0x111e, 28, 113), (0x113a, 7, 115), (0x1141, 3, 136), (0x1144, 5, 135), (0x1149, 7, 136), (0x1150, 3, 136),
      (0x1153, 5, 135), (0x1158, 8, 136), (0x1160, 12, 130), (0x116c, 10, 131), (0x1176, 6, 132), (0x117c, 5, 135), (0x1181, 15, 132),
      (0x1190, 5, 87), (0x1195, 11, 87), (0x11a0, 6, 109), (0x11a6, 10, 109), (0x11b0, 15, 100), (0x11bf, 10, 98), (0x11c9, 15, 100),
      (0x11d8, 20, 104), (0x11ec, 20, 105), (0x1200, 17, 94)]),
    fn 0x1000 0x13 (str% "pre_c_init") false (ln f0 [(0x1000, 3, 63), (0x1003, 12, 64), (0x100f, 4, 65)]),
    fn 0x1600 0x1c (str% "__main") false (ln f1 [(0x1600, 9, 55), (0x1609, 7, 60), (0x1610, 10, 57), (0x161a, 2, 58)]),
    fn 0x15a0 0x52 (str% "__do_global_ctors") false (ln f1 [(0x15a0, 4, 33), (0x15a4, 6, 34), (0x15aa, 5, 37), (0x15af, 9, 42), (0x15b8, 7, 44),
      (0x15bf, 3, 42), (0x15c2, 2, 42), (0x15c4, 12, 47), (0x15d0, 4, 48), (0x15d4, 4, 48), (0x15d8, 8, 39), (0x15e0, 2, 39), (0x15e2, 3, 39),
      (0x15e5, 13, 39)]),
    fn 0x1560 0x31 (str% "__do_global_dtors") false (ln f1 [(0x1560, 11, 24), (0x156b, 5, 21), (0x1570, 2, 26), (0x1572, 8, 27), (0x157a, 3, 24),
      (0x157d, 6, 27), (0x1583, 4, 24), (0x1587, 10, 29)]),
    fn 0x1620 0x43 (str% "__dyn_tls_dtor") false (ln f2 [(0x1620, 3, 137), (0x1623, 4, 137), (0x1627, 9, 143), (0x1630, 16, 168), (0x1640, 24, 166),
      (0x1658, 11, 168)]),
    fn 0x1710 0x3 (str% "__tlregdtor") false (ln f2 [(0x1710, 3, 133)]),
    fn 0x1670 0x99 (str% "__dyn_tls_init@12") true (ln f2 [(0x1670, 5, 77), (0x1675, 7, 82), (0x167c, 4, 77), (0x1680, 2, 82), (0x1682, 10, 83),
      (0x168c, 5, 85), (0x1691, 5, 87), (0x1696, 18, 101), (0x16a8, 5, 76), (0x16ad, 5, 76), (0x16b2, 14, 76), (0x16c0, 2, 76), (0x16c2, 4, 76),
      (0x16c6, 2, 76), (0x16c8, 3, 76), (0x16cb, 4, 76), (0x16cf, 17, 101), (0x16e0, 28, 88), (0x16fc, 13, 101)]),
    fn 0x18e0 0x2ff (str% "_pei386_runtime_relocator") false (ln f3 [(0x18e0, 9, 485), (0x18e9, 6, 491), (0x18ef, 4, 491), (0x18f3, 13, 511),
      (0x1900, 10, 493), (0x190a, 5, 495), (0x190f, 3, 496), (0x1912, 18, 496), (0x1924, 10, 497), (0x192e, 9, 496), (0x1937, 5, 496),
      (0x193c, 10, 500), (0x1946, 5, 500), (0x194b, 6, 500), (0x1951, 9, 500), (0x195a, 5, 500), (0x195f, 10, 500), (0x1969, 3, 500),
      (0x196c, 8, 500), (0x1974, 3, 500), (0x1977, 9, 500), (0x1980, 3, 500), (0x1983, 21, 500), (0x1998, 5, 500), (0x199d, 6, 500), (0x19a3, 6, 500),
      (0x19a9, 2, 500), (0x19ab, 2, 500), (0x19ad, 8, 500), (0x19b5, 3, 500), (0x19b8, 5, 500), (0x19bd, 6, 500), (0x19c3, 3, 500), (0x19c6, 12, 500),
      (0x19d2, 3, 500), (0x19d5, 3, 500), (0x19d8, 9, 500), (0x19e1, 8, 500), (0x19e9, 9, 500), (0x19f2, 6, 500), (0x19f8, 5, 500), (0x19fd, 14, 500),
      (0x1a0b, 3, 500), (0x1a0e, 18, 500), (0x1a20, 8, 500), (0x1a28, 5, 500), (0x1a2d, 5, 500), (0x1a32, 30, 500), (0x1a50, 7, 500),
      (0x1a57, 2, 500), (0x1a59, 18, 500), (0x1a6b, 3, 500), (0x1a6e, 2, 500), (0x1a70, 6, 500), (0x1a76, 3, 500), (0x1a79, 2, 500),
      (0x1a7b, 20, 500), (0x1a8f, 3, 500), (0x1a92, 3, 500), (0x1a95, 5, 500), (0x1a9a, 7, 500), (0x1aa1, 12, 500), (0x1aad, 11, 500),
      (0x1ab8, 7, 500), (0x1abf, 2, 500), (0x1ac1, 16, 500), (0x1ad1, 3, 500), (0x1ad4, 2, 500), (0x1ad6, 5, 500), (0x1adb, 8, 500),
      (0x1ae3, 13, 500), (0x1af0, 8, 500), (0x1af8, 16, 500), (0x1b08, 6, 500), (0x1b0e, 34, 500), (0x1b30, 5, 500), (0x1b35, 19, 500),
      (0x1b48, 3, 500), (0x1b4b, 2, 500), (0x1b4d, 3, 500), (0x1b50, 6, 500), (0x1b56, 6, 500), (0x1b5c, 5, 500), (0x1b61, 6, 500), (0x1b67, 11, 500),
      (0x1b72, 14, 509), (0x1b80, 16, 509), (0x1b90, 12, 509), (0x1b9c, 2, 509), (0x1b9e, 4, 509), (0x1ba2, 26, 509), (0x1bbc, 3, 509),
      (0x1bbf, 8, 509), (0x1bc7, 6, 511), (0x1bcd, 2, 511), (0x1bcf, 16, 500)]),
    fn 0x1780 0x157 (str% "mark_section_writable") false (ln f3 [(0x1780, 8, 184), (0x1788, 19, 189), (0x179b, 5, 189), (0x17a0, 2, 191),
      (0x17a2, 4, 191), (0x17a6, 6, 192), (0x17ac, 8, 192), (0x17b4, 3, 189), (0x17b7, 7, 189), (0x17be, 10, 195), (0x17c8, 8, 196), (0x17d0, 5, 201),
      (0x17d5, 3, 201), (0x17d8, 5, 201), (0x17dd, 3, 201), (0x17e0, 6, 202), (0x17e6, 5, 203), (0x17eb, 6, 203), (0x17f1, 3, 203), (0x17f4, 4, 203),
      (0x17f8, 28, 205), (0x1814, 8, 205), (0x181c, 4, 212), (0x1820, 3, 212), (0x1823, 5, 213), (0x1828, 3, 212), (0x182b, 5, 213), (0x1830, 7, 228),
      (0x1837, 9, 230), (0x1840, 13, 219), (0x184d, 4, 221), (0x1851, 3, 219), (0x1854, 4, 220), (0x1858, 6, 220), (0x185e, 3, 221), (0x1861, 3, 220),
      (0x1864, 21, 222), (0x1879, 3, 222), (0x187c, 4, 222), (0x1880, 6, 226), (0x1886, 26, 225), (0x18a0, 7, 189), (0x18a7, 32, 207),
      (0x18c7, 16, 198)]),
    fn 0x1720 0x59 (str% "__report_error") false (ln f3 [(0x1720, 4, 85), (0x1724, 7, 150), (0x172b, 4, 148), (0x172f, 37, 150), (0x1754, 32, 151),
      (0x1774, 5, 157)]),
    fn 0x1d60 0xe5 (str% "__mingw_TLScallback") false (ln f4 [(0x1d60, 4, 125), (0x1d64, 4, 125), (0x1d68, 11, 126), (0x1d73, 5, 129),
      (0x1d78, 8, 129), (0x1d80, 10, 131), (0x1d8a, 14, 157), (0x1d98, 5, 126), (0x1d9d, 5, 153), (0x1da2, 14, 153), (0x1db0, 5, 150),
      (0x1db5, 11, 157), (0x1dc0, 5, 134), (0x1dc5, 4, 134), (0x1dc9, 5, 135), (0x1dce, 5, 135), (0x1dd3, 6, 138), (0x1dd9, 7, 138), (0x1de0, 2, 140),
      (0x1de2, 3, 140), (0x1de5, 8, 141), (0x1ded, 4, 138), (0x1df1, 10, 144), (0x1dfb, 10, 145), (0x1e05, 27, 146), (0x1e20, 16, 134),
      (0x1e30, 21, 130)]),
    fn 0x1cd0 0x88 (str% "___w64_mingwthr_remove_key_dtor") false (ln f4 [(0x1cd0, 4, 66), (0x1cd4, 5, 70), (0x1cd9, 4, 66), (0x1cdd, 4, 70),
      (0x1ce1, 15, 96), (0x1cf0, 13, 73), (0x1cfd, 5, 76), (0x1d02, 3, 73), (0x1d05, 4, 78), (0x1d09, 7, 75), (0x1d10, 6, 78), (0x1d16, 2, 78),
      (0x1d18, 2, 80), (0x1d1a, 2, 80), (0x1d1c, 3, 83), (0x1d1f, 2, 80), (0x1d21, 4, 82), (0x1d25, 3, 85), (0x1d28, 8, 87), (0x1d30, 13, 94),
      (0x1d3d, 2, 96), (0x1d3f, 3, 94), (0x1d42, 14, 96), (0x1d50, 8, 83)]),
    fn 0x1c50 0x75 (str% "___w64_mingwthr_add_key_dtor") false (ln f4 [(0x1c50, 5, 46), (0x1c55, 4, 46), (0x1c59, 7, 62), (0x1c60, 4, 43),
      (0x1c64, 22, 48), (0x1c7a, 4, 49), (0x1c7e, 4, 52), (0x1c82, 7, 55), (0x1c89, 2, 52), (0x1c8b, 7, 53), (0x1c92, 6, 55), (0x1c98, 5, 57),
      (0x1c9d, 6, 58), (0x1ca3, 3, 55), (0x1ca6, 3, 57), (0x1ca9, 13, 60), (0x1cb6, 2, 61), (0x1cb8, 3, 60), (0x1cbb, 4, 62), (0x1cbf, 1, 62),
      (0x1cc0, 3, 50), (0x1cc3, 2, 50)]),
    fn 0x1be0 0x6d (str% "__mingwthr_run_key_dtors") false (ln f4 [(0x1be0, 7, 99), (0x1be7, 13, 105), (0x1bf4, 6, 107), (0x1bfa, 3, 105),
      (0x1bfd, 19, 107), (0x1c10, 2, 109), (0x1c12, 10, 109), (0x1c1c, 2, 110), (0x1c1e, 4, 112), (0x1c22, 4, 112), (0x1c26, 3, 113),
      (0x1c29, 5, 113), (0x1c2e, 3, 115), (0x1c31, 4, 107), (0x1c35, 16, 118), (0x1c45, 4, 119), (0x1c49, 4, 119)]),
    fn 0x2170 0xb7 (str% "__mingw_enum_import_library_names") false (ln f5 [(0x2170, 2, 202), (0x2172, 1, 193), (0x2173, 9, 201), (0x217c, 2, 193),
      (0x217e, 4, 193), (0x2182, 2, 201), (0x2184, 5, 201), (0x2189, 10, 201), (0x2193, 6, 201), (0x2199, 2, 201), (0x219b, 13, 230),
      (0x21a8, 11, 201), (0x21b3, 6, 206), (0x21b9, 4, 207), (0x21bd, 4, 210), (0x21c1, 4, 210), (0x21c5, 4, 210), (0x21c9, 4, 210), (0x21cd, 3, 210),
      (0x21d0, 3, 210), (0x21d3, 4, 210), (0x21d7, 3, 210), (0x21da, 4, 210), (0x21de, 3, 210), (0x21e1, 3, 210), (0x21e4, 4, 210), (0x21e8, 2, 202),
      (0x21ea, 1, 230), (0x21eb, 5, 230), (0x21f0, 5, 214), (0x21f5, 11, 215), (0x2200, 3, 225), (0x2203, 3, 226), (0x2206, 7, 220), (0x220d, 7, 220),
      (0x2214, 4, 223), (0x2218, 3, 224), (0x221b, 1, 230), (0x221c, 2, 230), (0x221e, 6, 224), (0x2224, 2, 230), (0x2226, 1, 230)]),
    fn 0x20e0 0x8b (str% "_IsNonwritableInCurrentImage") false (ln f5 [(0x20e0, 2, 180), (0x20e2, 11, 179), (0x20ed, 6, 179), (0x20f3, 10, 179),
      (0x20fd, 6, 179), (0x2103, 2, 179), (0x2105, 11, 186), (0x2110, 11, 179), (0x211b, 1, 173), (0x211c, 7, 182), (0x2123, 1, 173),
      (0x2124, 4, 181), (0x2128, 4, 182), (0x212c, 4, 182), (0x2130, 6, 181), (0x2136, 4, 182), (0x213a, 6, 182), (0x2140, 3, 182), (0x2143, 4, 182),
      (0x2147, 3, 182), (0x214a, 4, 182), (0x214e, 3, 182), (0x2151, 3, 182), (0x2154, 4, 182), (0x2158, 2, 180), (0x215a, 1, 186), (0x215b, 5, 186),
      (0x2160, 3, 185), (0x2163, 1, 186), (0x2164, 1, 186), (0x2165, 5, 185), (0x216a, 1, 186)]),
    fn 0x20a0 0x32 (str% "_GetPEImageBase") false (ln f5 [(0x20a0, 2, 165), (0x20a2, 11, 164), (0x20ad, 6, 164), (0x20b3, 12, 164), (0x20bf, 1, 167),
      (0x20c0, 14, 166), (0x20ce, 3, 166), (0x20d1, 1, 167)]),
    fn 0x2020 0x73 (str% "_FindPESectionExec") false (ln f5 [(0x2020, 2, 139), (0x2022, 1, 131), (0x2023, 4, 131), (0x2027, 11, 138),
      (0x2032, 6, 138), (0x2038, 10, 138), (0x2042, 6, 138), (0x2048, 2, 138), (0x204a, 6, 155), (0x2050, 11, 138), (0x205b, 7, 143),
      (0x2062, 7, 144), (0x2069, 4, 143), (0x206d, 4, 144), (0x2071, 7, 143), (0x2078, 6, 147), (0x207e, 4, 149), (0x2082, 3, 151), (0x2085, 3, 145),
      (0x2088, 3, 145), (0x208b, 4, 144), (0x208f, 2, 139), (0x2091, 2, 155)]),
    fn 0x1fe0 0x33 (str% "__mingw_GetSectionCount") false (ln f5 [(0x1fe0, 2, 119), (0x1fe2, 11, 118), (0x1fed, 6, 118), (0x1ff3, 12, 118),
      (0x1fff, 1, 124), (0x2000, 11, 118), (0x200b, 7, 123), (0x2012, 1, 124)]),
    fn 0x1f60 0x7d (str% "__mingw_GetSectionForAddress") false (ln f5 [(0x1f60, 2, 105), (0x1f62, 11, 104), (0x1f6d, 6, 104), (0x1f73, 10, 104),
      (0x1f7d, 6, 104), (0x1f83, 2, 104), (0x1f85, 11, 109), (0x1f90, 11, 104), (0x1f9b, 1, 99), (0x1f9c, 7, 108), (0x1fa3, 1, 99), (0x1fa4, 7, 108),
      (0x1fab, 4, 107), (0x1faf, 4, 108), (0x1fb3, 6, 107), (0x1fb9, 4, 108), (0x1fbd, 3, 108), (0x1fc0, 3, 108), (0x1fc3, 4, 108), (0x1fc7, 3, 108),
      (0x1fca, 4, 108), (0x1fce, 3, 108), (0x1fd1, 3, 108), (0x1fd4, 4, 108), (0x1fd8, 2, 105), (0x1fda, 1, 109), (0x1fdb, 2, 109)]),
    fn 0x1ec0 0x9c (str% "_FindPESectionByName") false (ln f5 [(0x1ec0, 4, 68), (0x1ec4, 2, 76), (0x1ec6, 3, 68), (0x1ec9, 4, 68), (0x1ecd, 8, 75),
      (0x1ed5, 5, 75), (0x1eda, 11, 79), (0x1ee5, 6, 79), (0x1eeb, 10, 79), (0x1ef5, 6, 79), (0x1efb, 2, 79), (0x1efd, 11, 79), (0x1f08, 7, 84),
      (0x1f0f, 4, 85), (0x1f13, 4, 84), (0x1f17, 4, 85), (0x1f1b, 5, 84), (0x1f20, 3, 86), (0x1f23, 3, 86), (0x1f26, 4, 85), (0x1f2a, 20, 88),
      (0x1f3e, 4, 88), (0x1f42, 14, 92), (0x1f50, 3, 92), (0x1f53, 2, 76), (0x1f55, 7, 92)]),
    fn 0x1e50 0x2e (str% "_ValidateImageBase") false (ln f5 [(0x1e50, 4, 25), (0x1e54, 2, 32), (0x1e56, 7, 31), (0x1e5d, 3, 24), (0x1e60, 8, 24),
      (0x1e68, 8, 40), (0x1e70, 11, 24), (0x1e7b, 2, 40), (0x1e7d, 1, 40)]),
    fn 0x1e80 0x3d (str% "_FindPESection") false (ln f5 [(0x1e80, 2, 46), (0x1e82, 8, 46), (0x1e8a, 3, 51), (0x1e8d, 4, 53), (0x1e91, 4, 54),
      (0x1e95, 4, 53), (0x1e99, 4, 54), (0x1e9d, 3, 53), (0x1ea0, 3, 57), (0x1ea3, 4, 57), (0x1ea7, 3, 58), (0x1eaa, 4, 58), (0x1eae, 3, 55),
      (0x1eb1, 3, 55), (0x1eb4, 4, 54), (0x1eb8, 2, 61), (0x1eba, 1, 62), (0x1ebb, 2, 62)]),
    fn 0x2230 0x3 (str% "_fpreset") false (ln f6 [(0x2230, 2, 19), (0x2232, 1, 24)]),
    fn 0x2280 0x8 (str% "DllEntryPoint@12") true (ln f7 [(0x2280, 8, 18)]),
    fn 0x2290 0x8 (str% "DllMain@12") true (ln f8 [(0x2290, 8, 10)]),
    fn 0x22a0 0xe (str% "__acrt_iob_func") false (ln f9 [(0x22a0, 13, 11), (0x22ad, 1, 12)]),
    fn 0x23b0 0x66 (str% "_execute_onexit_table") false (ln f10 [(0x23b0, 6, 56), (0x23b6, 7, 59), (0x23bd, 4, 56), (0x23c1, 5, 59), (0x23c6, 2, 60),
      (0x23c8, 3, 61), (0x23cb, 7, 62), (0x23d2, 7, 62), (0x23d9, 6, 62), (0x23df, 12, 63), (0x23eb, 4, 65), (0x23ef, 3, 67), (0x23f2, 4, 67),
      (0x23f6, 2, 68), (0x23f8, 4, 68), (0x23fc, 2, 69), (0x23fe, 3, 67), (0x2401, 4, 67), (0x2405, 8, 71), (0x240d, 6, 73), (0x2413, 1, 73),
      (0x2414, 2, 73)]),
    fn 0x22e0 0xc2 (str% "_register_onexit_function") false (ln f10 [(0x22e0, 6, 23), (0x22e6, 4, 23), (0x22ea, 8, 24), (0x22f2, 12, 26),
      (0x22fe, 6, 28), (0x2304, 3, 38), (0x2307, 3, 38), (0x230a, 4, 38), (0x230e, 6, 50), (0x2314, 6, 50), (0x231a, 12, 51), (0x2326, 2, 52),
      (0x2328, 8, 53), (0x2330, 2, 39), (0x2332, 4, 39), (0x2336, 3, 40), (0x2339, 5, 39), (0x233e, 12, 40), (0x234a, 4, 41), (0x234e, 2, 45),
      (0x2350, 3, 46), (0x2353, 2, 47), (0x2355, 11, 47), (0x2360, 20, 29), (0x2374, 2, 29), (0x2376, 2, 29), (0x2378, 4, 30), (0x237c, 3, 34),
      (0x237f, 6, 35), (0x2385, 5, 35), (0x238a, 7, 24), (0x2391, 12, 31), (0x239d, 5, 32)]),
    fn 0x22b0 0x25 (str% "_initialize_onexit_table") false (ln f10 [(0x22b0, 4, 16), (0x22b4, 4, 17), (0x22b8, 7, 18), (0x22bf, 7, 18),
      (0x22c6, 6, 18), (0x22cc, 3, 19), (0x22cf, 5, 17), (0x22d4, 1, 20)])]

/-- The exported symbols (their sizes are not used in what is printed, and left at 0). -/
def publics : List Collector.Public :=
  [
    ⟨some (str% "_Z10test_arrayPcPA34_iPA34_A56_NSt7__cxx1112basic_stringIcSt11char_traitsIcESaIcEEEPA34_A56_A78_Pd"), 0x1543, 0⟩,
    ⟨some (str% "_Z23test_array_empty_structP5EmptyPA34_S_PA34_A56_S_PA34_A56_A78_S_"), 0x154d, 0⟩,
    ⟨some (str% "_Z5test1Pi"), 0x14d0, 0⟩,
    ⟨some (str% "_Z5test2ij"), 0x14df, 0⟩,
    ⟨some (str% "_Z5test3ijs"), 0x14e5, 0⟩,
    ⟨some (str% "_Z5test4ijtPd"), 0x14f5, 0⟩,
    ⟨some (str% "_Z5test5PijtPKdNSt7__cxx1112basic_stringIcSt11char_traitsIcESaIcEEE"), 0x1505, 0⟩,
    ⟨some (str% "_Z5test6PKdRKNSt7__cxx1112basic_stringIcSt11char_traitsIcESaIcEEEOS6_"), 0x1515, 0⟩,
    ⟨some (str% "_Z5test7PFvijtPdE"), 0x151b, 0⟩,
    ⟨some (str% "_Z5test8PFiPFvijtPdEE"), 0x1525, 0⟩,
    ⟨some (str% "_Z5test9PFiPFiPFvijtPdEEE"), 0x152f, 0⟩,
    ⟨some (str% "_Z6test10RPc"), 0x1539, 0⟩]

/-- The file. -/
def object : ObjInput where
  format := .pe
  debugId := str% "000000000000000000000000000000000"
  codeId := some (str% "63cf13f21f000")
  arch := str% "x86"
  hasDebugInfo := true
  name := none
  functions := .ok (functions.map some)
  exceptions := none
  publics := publics
  unwind := none
  kind := .pe

/-- Parts of `expected`. -/
def e0 : List Str :=
  [
    str% "MODULE windows x86 000000000000000000000000000000000 basic32-dwarf.dll\nINFO CODE_ID 63CF13F21F000 basic32-dwarf.dll\n",
    str% "FILE 0 /build/mingw-w64-crt/src/mingw-w64-v10.0.0/mingw-w64-crt/crt/crtdll.c\n",
    str% "FILE 1 /build/mingw-w64-crt/src/mingw-w64-v10.0.0/mingw-w64-crt/crt/gccmain.c\n",
    str% "FILE 2 /build/mingw-w64-crt/src/mingw-w64-v10.0.0/mingw-w64-crt/crt/tlssup.c\n",
    str% "FILE 3 /build/mingw-w64-crt/src/mingw-w64-v10.0.0/mingw-w64-crt/crt/pseudo-reloc.c\n",
    str% "FILE 4 /build/mingw-w64-crt/src/mingw-w64-v10.0.0/mingw-w64-crt/crt/tlsthrd.c\n"]
def e1 : List Str :=
  [
    str% "FILE 5 /build/mingw-w64-crt/src/mingw-w64-v10.0.0/mingw-w64-crt/crt/pesect.c\n",
    str% "FILE 6 /build/mingw-w64-crt/src/mingw-w64-v10.0.0/mingw-w64-crt/crt/CRT_fp10.c\n",
    str% "FILE 7 /build/mingw-w64-crt/src/mingw-w64-v10.0.0/mingw-w64-crt/crt/dllentry.c\n",
    str% "FILE 8 /build/mingw-w64-crt/src/mingw-w64-v10.0.0/mingw-w64-crt/crt/dllmain.c\n",
    str% "FILE 9 /build/mingw-w64-crt/src/mingw-w64-v10.0.0/mingw-w64-crt/stdio/acrt_iob_func.c\n",
    str% "FILE 10 /build/mingw-w64-crt/src/mingw-w64-v10.0.0/mingw-w64-crt/misc/onexit_table.c\n"]
def e2 : List Str :=
  [
    [],
    str% "FUNC 1000 13 0 pre_c_init\n1000 3 63 0\n1003 c 64 0\n100f 4 65 0\n",
    str% "FUNC 1020 1f1 0 _CRT_INIT@12\n1020 a 68 0\n102a 4 69 0\n102e a 71 0\n1038 3 72 0\n103b 7 120 0\n1042 6 72 0\n1048 8 117 0\n1050 10 122 0\n" ++
      str% "1060 10 120 0\n1070 e 124 0\n107e c 126 0\n108a 5 135 0\n108f 11 136 0\n10a0 9 76 0\n10a9 6 79 0\n10af 6 90 0\n10b5 3 79 0\n10b8 8 82 0\n" ++
      str% "10c0 8 85 0\n10c8 c 90 0\n10d4 a 82 0\n10de 4 83 0\n10e2 2 80 0\n10e4 e 92 0\n10f2 d 96 0\n10ff e 102 0\n110d 8 107 0\n1115 9 111 0\n" ++
      str% "111e 1c 113 0\n113a 7 115 0\n1141 3 136 0\n1144 5 135 0\n1149 a 136 0\n1153 5 135 0\n1158 8 136 0\n1160 c 130 0\n116c a 131 0\n" ++
      str% "1176 6 132 0\n117c 5 135 0\n1181 f 132 0\n1190 10 87 0\n11a0 10 109 0\n11b0 f 100 0\n11bf a 98 0\n11c9 f 100 0\n11d8 14 104 0\n" ++
      str% "11ec 14 105 0\n1200 11 94 0\n",
    str% "FUNC 1220 189 0 __DllMainCRTStartup\n1220 d 160 0\n122d 6 163 0\n1233 d 164 0\n1240 5 169 0\n1245 17 185 0\n125c 15 194 0\n1271 17 195 0\n" ++
      str% "1288 2 196 0\n128a a 199 0\n1294 c 201 0\n12a0 5 169 0\n12a5 3 170 0\n12a8 b 172 0\n12b3 9 170 0\n12bc 8 172 0\n12c4 4 173 0\n" ++
      str% "12c8 15 175 0\n12dd 8 176 0\n12e5 9 183 0\n12ee 5 184 0\n12f3 19 185 0\n130c 8 186 0\n1314 17 188 0\n132b 17 189 0\n1342 17 190 0\n" ++
      str% "1359 7 192 0\n1360 a 185 0\n136a 16 192 0\n1380 b 178 0\n138b 19 185 0\n13a4 5 192 0\n",
    str% "FUNC 13b0 24 0 DllMainCRTStartup@12\n13b0 3 147 0\n13b3 a 148 0\n13bd 11 155 0\n13ce 6 156 0\n",
    str% "FUNC 13e0 1b 0 atexit\n13e0 3 205 0\n13e3 14 206 0\n13f7 4 207 0\n"]
def e3 : List Str :=
  [
    str% "PUBLIC 14d0 0 Z5test1Pi\n",
    str% "PUBLIC 14df 0 Z5test2ij\n",
    str% "PUBLIC 14e5 0 Z5test3ijs\n",
    str% "PUBLIC 14f5 0 Z5test4ijtPd\n",
    str% "PUBLIC 1505 0 Z5test5PijtPKdNSt7__cxx1112basic_stringIcSt11char_traitsIcESaIcEEE\n",
    str% "PUBLIC 1515 0 Z5test6PKdRKNSt7__cxx1112basic_stringIcSt11char_traitsIcESaIcEEEOS6_\n"]
def e4 : List Str :=
  [
    str% "PUBLIC 151b 0 Z5test7PFvijtPdE\n",
    str% "PUBLIC 1525 0 Z5test8PFiPFvijtPdEE\n",
    str% "PUBLIC 152f 0 Z5test9PFiPFiPFvijtPdEEE\n",
    str% "PUBLIC 1539 0 Z6test10RPc\n",
    str% "PUBLIC 1543 0 Z10test_arrayPcPA34_iPA34_A56_NSt7__cxx1112basic_stringIcSt11char_traitsIcESaIcEEEPA34_A56_A78_Pd\n",
    str% "PUBLIC 154d 0 Z23test_array_empty_structP5EmptyPA34_S_PA34_A56_S_PA34_A56_A78_S_\n"]
def e5 : List Str :=
  [
    str% "FUNC 1560 31 0 __do_global_dtors\n1560 b 24 1\n156b 5 21 1\n1570 2 26 1\n1572 8 27 1\n157a 3 24 1\n157d 6 27 1\n1583 4 24 1\n1587 a 29 1\n",
    str% "FUNC 15a0 52 0 __do_global_ctors\n15a0 4 33 1\n15a4 6 34 1\n15aa 5 37 1\n15af 9 42 1\n15b8 7 44 1\n15bf 5 42 1\n15c4 c 47 1\n15d0 8 48 1\n" ++
      str% "15d8 1a 39 1\n",
    str% "FUNC 1600 1c 0 __main\n1600 9 55 1\n1609 7 60 1\n1610 a 57 1\n161a 2 58 1\n",
    str% "FUNC 1620 43 0 __dyn_tls_dtor\n1620 7 137 2\n1627 9 143 2\n1630 10 168 2\n1640 18 166 2\n1658 b 168 2\n",
    str% "FUNC 1670 99 0 __dyn_tls_init@12\n1670 5 77 2\n1675 7 82 2\n167c 4 77 2\n1680 2 82 2\n1682 a 83 2\n168c 5 85 2\n1691 5 87 2\n1696 12 101 2\n" ++
      str% "16a8 27 76 2\n16cf 11 101 2\n16e0 1c 88 2\n16fc d 101 2\n",
    str% "FUNC 1710 3 0 __tlregdtor\n1710 3 133 2\n"]
def e6 : List Str :=
  [
    str% "FUNC 1720 59 0 __report_error\n1720 4 85 3\n1724 7 150 3\n172b 4 148 3\n172f 25 150 3\n1754 20 151 3\n1774 5 157 3\n",
    str% "FUNC 1780 157 0 mark_section_writable\n1780 8 184 3\n1788 18 189 3\n17a0 6 191 3\n17a6 e 192 3\n17b4 a 189 3\n17be a 195 3\n17c8 8 196 3\n" ++
      str% "17d0 10 201 3\n17e0 6 202 3\n17e6 12 203 3\n17f8 24 205 3\n181c 7 212 3\n1823 5 213 3\n1828 3 212 3\n182b 5 213 3\n1830 7 228 3\n" ++
      str% "1837 9 230 3\n1840 d 219 3\n184d 4 221 3\n1851 3 219 3\n1854 a 220 3\n185e 3 221 3\n1861 3 220 3\n1864 1c 222 3\n1880 6 226 3\n" ++
      str% "1886 1a 225 3\n18a0 7 189 3\n18a7 20 207 3\n18c7 10 198 3\n",
    str% "FUNC 18e0 2ff 0 _pei386_runtime_relocator\n18e0 9 485 3\n18e9 a 491 3\n18f3 d 511 3\n1900 a 493 3\n190a 5 495 3\n190f 15 496 3\n" ++
      str% "1924 a 497 3\n192e e 496 3\n193c 236 500 3\n1b72 55 509 3\n1bc7 8 511 3\n1bcf 10 500 3\n",
    str% "FUNC 1be0 6d 0 __mingwthr_run_key_dtors\n1be0 7 99 4\n1be7 d 105 4\n1bf4 6 107 4\n1bfa 3 105 4\n1bfd 13 107 4\n1c10 c 109 4\n1c1c 2 110 4\n" ++
      str% "1c1e 8 112 4\n1c26 8 113 4\n1c2e 3 115 4\n1c31 4 107 4\n1c35 10 118 4\n1c45 8 119 4\n",
    str% "FUNC 1c50 75 0 ___w64_mingwthr_add_key_dtor\n1c50 9 46 4\n1c59 7 62 4\n1c60 4 43 4\n1c64 16 48 4\n1c7a 4 49 4\n1c7e 4 52 4\n1c82 7 55 4\n" ++
      str% "1c89 2 52 4\n1c8b 7 53 4\n1c92 6 55 4\n1c98 5 57 4\n1c9d 6 58 4\n1ca3 3 55 4\n1ca6 3 57 4\n1ca9 d 60 4\n1cb6 2 61 4\n1cb8 3 60 4\n" ++
      str% "1cbb 5 62 4\n1cc0 5 50 4\n",
    str% "FUNC 1cd0 88 0 ___w64_mingwthr_remove_key_dtor\n1cd0 4 66 4\n1cd4 5 70 4\n1cd9 4 66 4\n1cdd 4 70 4\n1ce1 f 96 4\n1cf0 d 73 4\n1cfd 5 76 4\n" ++
      str% "1d02 3 73 4\n1d05 4 78 4\n1d09 7 75 4\n1d10 8 78 4\n1d18 4 80 4\n1d1c 3 83 4\n1d1f 2 80 4\n1d21 4 82 4\n1d25 3 85 4\n1d28 8 87 4\n" ++
      str% "1d30 d 94 4\n1d3d 2 96 4\n1d3f 3 94 4\n1d42 e 96 4\n1d50 8 83 4\n"]
def e7 : List Str :=
  [
    str% "FUNC 1d60 e5 0 __mingw_TLScallback\n1d60 8 125 4\n1d68 b 126 4\n1d73 d 129 4\n1d80 a 131 4\n1d8a e 157 4\n1d98 5 126 4\n1d9d 13 153 4\n" ++
      str% "1db0 5 150 4\n1db5 b 157 4\n1dc0 9 134 4\n1dc9 a 135 4\n1dd3 d 138 4\n1de0 5 140 4\n1de5 8 141 4\n1ded 4 138 4\n1df1 a 144 4\n1dfb a 145 4\n" ++
      str% "1e05 1b 146 4\n1e20 10 134 4\n1e30 15 130 4\n",
    str% "FUNC 1e50 2e 0 _ValidateImageBase\n1e50 4 25 5\n1e54 2 32 5\n1e56 7 31 5\n1e5d b 24 5\n1e68 8 40 5\n1e70 b 24 5\n1e7b 3 40 5\n",
    str% "FUNC 1e80 3d 0 _FindPESection\n1e80 a 46 5\n1e8a 3 51 5\n1e8d 4 53 5\n1e91 4 54 5\n1e95 4 53 5\n1e99 4 54 5\n1e9d 3 53 5\n1ea0 7 57 5\n" ++
      str% "1ea7 7 58 5\n1eae 6 55 5\n1eb4 4 54 5\n1eb8 2 61 5\n1eba 3 62 5\n",
    str% "FUNC 1ec0 9c 0 _FindPESectionByName\n1ec0 4 68 5\n1ec4 2 76 5\n1ec6 7 68 5\n1ecd d 75 5\n1eda 2e 79 5\n1f08 7 84 5\n1f0f 4 85 5\n" ++
      str% "1f13 4 84 5\n1f17 4 85 5\n1f1b 5 84 5\n1f20 6 86 5\n1f26 4 85 5\n1f2a 18 88 5\n1f42 11 92 5\n1f53 2 76 5\n1f55 7 92 5\n",
    str% "FUNC 1f60 7d 0 __mingw_GetSectionForAddress\n1f60 2 105 5\n1f62 23 104 5\n1f85 b 109 5\n1f90 b 104 5\n1f9b 1 99 5\n1f9c 7 108 5\n" ++
      str% "1fa3 1 99 5\n1fa4 7 108 5\n1fab 4 107 5\n1faf 4 108 5\n1fb3 6 107 5\n1fb9 1f 108 5\n1fd8 2 105 5\n1fda 3 109 5\n",
    str% "FUNC 1fe0 33 0 __mingw_GetSectionCount\n1fe0 2 119 5\n1fe2 1d 118 5\n1fff 1 124 5\n2000 b 118 5\n200b 7 123 5\n2012 1 124 5\n"]
def e8 : List Str :=
  [
    str% "FUNC 2020 73 0 _FindPESectionExec\n2020 2 139 5\n2022 5 131 5\n2027 23 138 5\n204a 6 155 5\n2050 b 138 5\n205b 7 143 5\n2062 7 144 5\n" ++
      str% "2069 4 143 5\n206d 4 144 5\n2071 7 143 5\n2078 6 147 5\n207e 4 149 5\n2082 3 151 5\n2085 6 145 5\n208b 4 144 5\n208f 2 139 5\n2091 2 155 5\n",
    str% "FUNC 20a0 32 0 _GetPEImageBase\n20a0 2 165 5\n20a2 1d 164 5\n20bf 1 167 5\n20c0 11 166 5\n20d1 1 167 5\n",
    str% "FUNC 20e0 8b 0 _IsNonwritableInCurrentImage\n20e0 2 180 5\n20e2 23 179 5\n2105 b 186 5\n2110 b 179 5\n211b 1 173 5\n211c 7 182 5\n" ++
      str% "2123 1 173 5\n2124 4 181 5\n2128 8 182 5\n2130 6 181 5\n2136 22 182 5\n2158 2 180 5\n215a 6 186 5\n2160 3 185 5\n2163 2 186 5\n" ++
      str% "2165 5 185 5\n216a 1 186 5\n",
    str% "FUNC 2170 b7 0 __mingw_enum_import_library_names\n2170 2 202 5\n2172 1 193 5\n2173 9 201 5\n217c 6 193 5\n2182 19 201 5\n219b d 230 5\n" ++
      str% "21a8 b 201 5\n21b3 6 206 5\n21b9 4 207 5\n21bd 2b 210 5\n21e8 2 202 5\n21ea 6 230 5\n21f0 5 214 5\n21f5 b 215 5\n2200 3 225 5\n" ++
      str% "2203 3 226 5\n2206 e 220 5\n2214 4 223 5\n2218 3 224 5\n221b 3 230 5\n221e 6 224 5\n2224 3 230 5\n",
    str% "FUNC 2230 3 0 _fpreset\n2230 2 19 6\n2232 1 24 6\n",
    str% "FUNC 2280 8 0 DllEntryPoint@12\n2280 8 18 7\n"]
def e9 : List Str :=
  [
    str% "FUNC 2290 8 0 DllMain@12\n2290 8 10 8\n",
    str% "FUNC 22a0 e 0 __acrt_iob_func\n22a0 d 11 9\n22ad 1 12 9\n",
    str% "FUNC 22b0 25 0 _initialize_onexit_table\n22b0 4 16 10\n22b4 4 17 10\n22b8 14 18 10\n22cc 3 19 10\n22cf 5 17 10\n22d4 1 20 10\n",
    str% "FUNC 22e0 c2 0 _register_onexit_function\n22e0 a 23 10\n22ea 8 24 10\n22f2 c 26 10\n22fe 6 28 10\n2304 a 38 10\n230e c 50 10\n231a c 51 10\n" ++
      str% "2326 2 52 10\n2328 8 53 10\n2330 6 39 10\n2336 3 40 10\n2339 5 39 10\n233e c 40 10\n234a 4 41 10\n234e 2 45 10\n2350 3 46 10\n2353 d 47 10\n" ++
      str% "2360 18 29 10\n2378 4 30 10\n237c 3 34 10\n237f b 35 10\n238a 7 24 10\n2391 c 31 10\n239d 5 32 10\n",
    str% "FUNC 23b0 66 0 _execute_onexit_table\n23b0 6 56 10\n23b6 7 59 10\n23bd 4 56 10\n23c1 5 59 10\n23c6 2 60 10\n23c8 3 61 10\n23cb 14 62 10\n" ++
      str% "23df c 63 10\n23eb 4 65 10\n23ef 7 67 10\n23f6 6 68 10\n23fc 2 69 10\n23fe 7 67 10\n2405 8 71 10\n240d 9 73 10\n",
    str% "PUBLIC 2416 0 <unknown in basic32-dwarf.dll>\n"]
def e10 : List Str :=
  [
    []]

/-- `test_data/windows/basic32-dwarf.sym`, in pieces (the last name changed). -/
def expected : List Str :=
  e0 ++ e1 ++ e2 ++ e3 ++ e4 ++ e5 ++ e6 ++ e7 ++ e8 ++ e9 ++ e10

/-- src/windows/pdb.rs:419-422 `test_basic32_dwarf`. -/
theorem basic32_dwarf : printed object (str% "basic32-dwarf.dll") = .ok expected.flatten :=
  printed_of_parts (by decide +kernel)

end Dll32

end GoldenPe
end DumpSyms
