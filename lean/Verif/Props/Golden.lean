import Verif.Model.ObjectInfo
import Verif.Spec.Frames
/-!
# The tests of src/action.rs on the files of test_data/linux, on the model

`/repo/test_data/linux/basic.full` is a small ELF executable built from `basic.cpp`; `basic.full.sym` and `basic.full.inlines.sym` are the
symbol files that the tests expect from it, without and with inlined calls.  The functions, line records, public symbols and section headers
of that executable are written here as `readelf` prints them, arranged the way the `symbolic` crate reports them (in the caller, a stretch
that belongs to an inlined call is one record with the line of the call).  The unwind text and the demangled names are inputs of the model
and are taken from the expected files.  The model prints the expected files, byte for byte (the Rust tests leave the first line out).
-/
namespace DumpSyms
namespace Golden

/-- The compilation directory. -/
def compDir : ByteSlice := ⟨(100, 62), (str% "/home/calixte/dev/mozilla/dump_syms.calixteman/test_data/linux").map fun c => c.toNat.toUInt8⟩

/-- The only source file. -/
def basicCpp : FileInfo := { dirRef := (0, 0), dir := [], nameRef := (200, 9), name := str% "basic.cpp" }

/-- A function: address, size, name, whether the name is a linkage name, line records (address, size, line), inlined calls. -/
def fn (a s : Nat) (name : Str) (mangled : Bool) (ls : List (Nat × Nat × Nat)) (is : List Func) : Func :=
  .mk a s ⟨name, mangled, .other 1⟩ compDir (ls.map fun l => ⟨l.1, some l.2.1, basicCpp, l.2.2⟩) is

/-- The functions of the DWARF data. -/
def functions : List Func :=
  [
    fn 0x12bd 0x1c (str% "main") false [(0x12bd, 15, 35), (0x12cc, 10, 36), (0x12d6, 1, 36), (0x12d7, 2, 37)] [],
    fn 0x11e4 0xd9 (str% "_Z3fooi") true [(0x11e4, 7, 24), (0x11eb, 9, 25), (0x11f4, 26, 26), (0x120e, 32, 26), (0x122e, 3, 26), (0x1231, 13, 27),
      (0x123e, 12, 28), (0x124a, 27, 29), (0x1265, 32, 29), (0x1285, 13, 29), (0x1292, 30, 29), (0x12b0, 3, 29), (0x12b3, 8, 31), (0x12bb, 2, 32)] [
      fn 0x120e 0x20 (str% "_Z8inline_4i") true [(0x120e, 31, 20), (0x122d, 1, 20)] [
        fn 0x120e 0x1f (str% "_Z8inline_3i") true [(0x120e, 30, 15), (0x122c, 1, 15)] [
          fn 0x120e 0x1e (str% "_Z8inline_2i") true [(0x120e, 29, 10), (0x122b, 1, 10)] [
            fn 0x120e 0x1d (str% "_Z8inline_1i") true [(0x120e, 9, 3), (0x1217, 9, 4), (0x1220, 8, 4), (0x1228, 3, 5)] []]]],
      fn 0x1265 0x20 (str% "_Z8inline_4i") true [(0x1265, 31, 20), (0x1284, 1, 20)] [
        fn 0x1265 0x1f (str% "_Z8inline_3i") true [(0x1265, 30, 15), (0x1283, 1, 15)] [
          fn 0x1265 0x1e (str% "_Z8inline_2i") true [(0x1265, 29, 10), (0x1282, 1, 10)] [
            fn 0x1265 0x1d (str% "_Z8inline_1i") true [(0x1265, 9, 3), (0x126e, 9, 4), (0x1277, 8, 4), (0x127f, 3, 5)] []]]],
      fn 0x1292 0x1e (str% "_Z8inline_2i") true [(0x1292, 29, 10), (0x12af, 1, 10)] [
        fn 0x1292 0x1d (str% "_Z8inline_1i") true [(0x1292, 9, 3), (0x129b, 9, 4), (0x12a4, 8, 4), (0x12ac, 3, 5)] []]],
    fn 0x1125 0x26 (str% "_Z8inline_1i") true [(0x1125, 7, 2), (0x112c, 9, 3), (0x1135, 9, 4), (0x113e, 8, 4), (0x1146, 3, 5), (0x1149, 2, 6)] [],
    fn 0x114b 0x2c (str% "_Z8inline_2i") true [(0x114b, 13, 9), (0x1158, 29, 10), (0x1175, 2, 11)] [
      fn 0x1158 0x1d (str% "_Z8inline_1i") true [(0x1158, 9, 3), (0x1161, 9, 4), (0x116a, 8, 4), (0x1172, 3, 5)] []],
    fn 0x1177 0x33 (str% "_Z8inline_3i") true [(0x1177, 19, 14), (0x118a, 30, 15), (0x11a8, 2, 16)] [
      fn 0x118a 0x1e (str% "_Z8inline_2i") true [(0x118a, 29, 10), (0x11a7, 1, 10)] [
        fn 0x118a 0x1d (str% "_Z8inline_1i") true [(0x118a, 9, 3), (0x1193, 9, 4), (0x119c, 8, 4), (0x11a4, 3, 5)] []]],
    fn 0x11aa 0x3a (str% "_Z8inline_4i") true [(0x11aa, 25, 19), (0x11c3, 31, 20), (0x11e2, 2, 21)] [
      fn 0x11c3 0x1f (str% "_Z8inline_3i") true [(0x11c3, 30, 15), (0x11e1, 1, 15)] [
        fn 0x11c3 0x1e (str% "_Z8inline_2i") true [(0x11c3, 29, 10), (0x11e0, 1, 10)] [
          fn 0x11c3 0x1d (str% "_Z8inline_1i") true [(0x11c3, 9, 3), (0x11cc, 9, 4), (0x11d5, 8, 4), (0x11dd, 3, 5)] []]]]]

/-- The function symbols of `.symtab`. -/
def publics : List Collector.Public :=
  [
    ⟨some (str% "deregister_tm_clones"), 0x1070, 0⟩,
    ⟨some (str% "register_tm_clones"), 0x10a0, 0⟩,
    ⟨some (str% "__do_global_dtors_aux"), 0x10e0, 0⟩,
    ⟨some (str% "frame_dummy"), 0x1120, 0⟩,
    ⟨some (str% "_init"), 0x1000, 0⟩,
    ⟨some (str% "__libc_csu_fini"), 0x1340, 1⟩,
    ⟨some (str% "_Z8inline_3i"), 0x1177, 51⟩,
    ⟨some (str% "_fini"), 0x1344, 0⟩,
    ⟨some (str% "_Z3fooi"), 0x11e4, 217⟩,
    ⟨some (str% "_Z8inline_1i"), 0x1125, 38⟩,
    ⟨some (str% "_Z8inline_2i"), 0x114b, 44⟩,
    ⟨some (str% "__libc_csu_init"), 0x12e0, 93⟩,
    ⟨some (str% "_start"), 0x1040, 43⟩,
    ⟨some (str% "_Z8inline_4i"), 0x11aa, 58⟩,
    ⟨some (str% "main"), 0x12bd, 28⟩]

/-- The section headers. -/
def sections : List Section :=
  [
    { name := some (str% ""), addr := 0x0, executable := false, offset := 0x0, size := 0x0 },
    { name := some (str% ".interp"), addr := 0x2a8, executable := false, offset := 0x2a8, size := 0x1c },
    { name := some (str% ".note.gnu.build-id"), addr := 0x2c4, executable := false, offset := 0x2c4, size := 0x24 },
    { name := some (str% ".note.ABI-tag"), addr := 0x2e8, executable := false, offset := 0x2e8, size := 0x20 },
    { name := some (str% ".gnu.hash"), addr := 0x308, executable := false, offset := 0x308, size := 0x24 },
    { name := some (str% ".dynsym"), addr := 0x330, executable := false, offset := 0x330, size := 0x90 },
    { name := some (str% ".dynstr"), addr := 0x3c0, executable := false, offset := 0x3c0, size := 0x7d },
    { name := some (str% ".gnu.version"), addr := 0x43e, executable := false, offset := 0x43e, size := 0xc },
    { name := some (str% ".gnu.version_r"), addr := 0x450, executable := false, offset := 0x450, size := 0x20 },
    { name := some (str% ".rela.dyn"), addr := 0x470, executable := false, offset := 0x470, size := 0xc0 },
    { name := some (str% ".init"), addr := 0x1000, executable := true, offset := 0x1000, size := 0x17 },
    { name := some (str% ".plt"), addr := 0x1020, executable := true, offset := 0x1020, size := 0x10 },
    { name := some (str% ".plt.got"), addr := 0x1030, executable := true, offset := 0x1030, size := 0x8 },
    { name := some (str% ".text"), addr := 0x1040, executable := true, offset := 0x1040, size := 0x301 },
    { name := some (str% ".fini"), addr := 0x1344, executable := true, offset := 0x1344, size := 0x9 },
    { name := some (str% ".rodata"), addr := 0x2000, executable := false, offset := 0x2000, size := 0x4 },
    { name := some (str% ".eh_frame_hdr"), addr := 0x2004, executable := false, offset := 0x2004, size := 0x64 },
    { name := some (str% ".eh_frame"), addr := 0x2068, executable := false, offset := 0x2068, size := 0x1a8 },
    { name := some (str% ".init_array"), addr := 0x3e18, executable := false, offset := 0x2e18, size := 0x8 },
    { name := some (str% ".fini_array"), addr := 0x3e20, executable := false, offset := 0x2e20, size := 0x8 },
    { name := some (str% ".dynamic"), addr := 0x3e28, executable := false, offset := 0x2e28, size := 0x1b0 },
    { name := some (str% ".got"), addr := 0x3fd8, executable := false, offset := 0x2fd8, size := 0x28 },
    { name := some (str% ".got.plt"), addr := 0x4000, executable := false, offset := 0x3000, size := 0x18 },
    { name := some (str% ".data"), addr := 0x4018, executable := false, offset := 0x3018, size := 0x10 },
    { name := some (str% ".bss"), addr := 0x4028, executable := false, offset := 0x3028, size := 0x8 },
    { name := some (str% ".comment"), addr := 0x0, executable := false, offset := 0x3028, size := 0x1d },
    { name := some (str% ".debug_aranges"), addr := 0x0, executable := false, offset := 0x3045, size := 0x30 },
    { name := some (str% ".debug_info"), addr := 0x0, executable := false, offset := 0x3075, size := 0x496 },
    { name := some (str% ".debug_abbrev"), addr := 0x0, executable := false, offset := 0x350b, size := 0x131 },
    { name := some (str% ".debug_line"), addr := 0x0, executable := false, offset := 0x363c, size := 0xef },
    { name := some (str% ".debug_str"), addr := 0x0, executable := false, offset := 0x372b, size := 0x10b },
    { name := some (str% ".symtab"), addr := 0x0, executable := false, offset := 0x3838, size := 0x6c0 },
    { name := some (str% ".strtab"), addr := 0x0, executable := false, offset := 0x3ef8, size := 0x22f },
    { name := some (str% ".shstrtab"), addr := 0x0, executable := false, offset := 0x4127, size := 0x13d }]

/-- The unwind text. -/
def unwindText : Str :=
  str% "STACK CFI INIT 1040 2b .cfa: $rsp 8 +\n" ++
  str% "STACK CFI INIT 1020 10 .cfa: $rsp 16 + .ra: .cfa -8 + ^\n" ++
  str% "STACK CFI 1026 .cfa: $rsp 24 +\n" ++
  str% "STACK CFI INIT 1030 8 .cfa: $rsp 8 + .ra: .cfa -8 + ^\n" ++
  str% "STACK CFI INIT 1125 26 .cfa: $rsp 8 + .ra: .cfa -8 + ^\n" ++
  str% "STACK CFI 1126 .cfa: $rsp 16 + $rbp: .cfa -16 + ^\n" ++
  str% "STACK CFI 1129 .cfa: $rbp 16 +\n" ++
  str% "STACK CFI 114a .cfa: $rsp 8 +\n" ++
  str% "STACK CFI INIT 114b 2c .cfa: $rsp 8 + .ra: .cfa -8 + ^\n" ++
  str% "STACK CFI 114c .cfa: $rsp 16 + $rbp: .cfa -16 + ^\n" ++
  str% "STACK CFI 114f .cfa: $rbp 16 +\n" ++
  str% "STACK CFI 1176 .cfa: $rsp 8 +\n" ++
  str% "STACK CFI INIT 1177 33 .cfa: $rsp 8 + .ra: .cfa -8 + ^\n" ++
  str% "STACK CFI 1178 .cfa: $rsp 16 + $rbp: .cfa -16 + ^\n" ++
  str% "STACK CFI 117b .cfa: $rbp 16 +\n" ++
  str% "STACK CFI 11a9 .cfa: $rsp 8 +\n" ++
  str% "STACK CFI INIT 11aa 3a .cfa: $rsp 8 + .ra: .cfa -8 + ^\n" ++
  str% "STACK CFI 11ab .cfa: $rsp 16 + $rbp: .cfa -16 + ^\n" ++
  str% "STACK CFI 11ae .cfa: $rbp 16 +\n" ++
  str% "STACK CFI 11e3 .cfa: $rsp 8 +\n" ++
  str% "STACK CFI INIT 11e4 d9 .cfa: $rsp 8 + .ra: .cfa -8 + ^\n" ++
  str% "STACK CFI 11e5 .cfa: $rsp 16 + $rbp: .cfa -16 + ^\n" ++
  str% "STACK CFI 11e8 .cfa: $rbp 16 +\n" ++
  str% "STACK CFI 12bc .cfa: $rsp 8 +\n" ++
  str% "STACK CFI INIT 12bd 1c .cfa: $rsp 8 + .ra: .cfa -8 + ^\n" ++
  str% "STACK CFI 12be .cfa: $rsp 16 + $rbp: .cfa -16 + ^\n" ++
  str% "STACK CFI 12c1 .cfa: $rbp 16 +\n" ++
  str% "STACK CFI 12d8 .cfa: $rsp 8 +\n" ++
  str% "STACK CFI INIT 12e0 5d .cfa: $rsp 8 + .ra: .cfa -8 + ^\n" ++
  str% "STACK CFI 12e2 .cfa: $rsp 16 + $r15: .cfa -16 + ^\n" ++
  str% "STACK CFI 12eb .cfa: $rsp 24 + $r14: .cfa -24 + ^\n" ++
  str% "STACK CFI 12f0 .cfa: $rsp 32 + $r13: .cfa -32 + ^\n" ++
  str% "STACK CFI 12f5 .cfa: $rsp 40 + $r12: .cfa -40 + ^\n" ++
  str% "STACK CFI 12f9 .cfa: $rsp 48 + $rbp: .cfa -48 + ^\n" ++
  str% "STACK CFI 1301 .cfa: $rsp 56 + $rbx: .cfa -56 + ^\n" ++
  str% "STACK CFI 1308 .cfa: $rsp 64 +\n" ++
  str% "STACK CFI 1332 .cfa: $rsp 56 +\n" ++
  str% "STACK CFI 1333 .cfa: $rsp 48 +\n" ++
  str% "STACK CFI 1334 .cfa: $rsp 40 +\n" ++
  str% "STACK CFI 1336 .cfa: $rsp 32 +\n" ++
  str% "STACK CFI 1338 .cfa: $rsp 24 +\n" ++
  str% "STACK CFI 133a .cfa: $rsp 16 +\n" ++
  str% "STACK CFI 133c .cfa: $rsp 8 +\n" ++
  str% "STACK CFI INIT 1340 1 .cfa: $rsp 8 + .ra: .cfa -8 + ^\n"

/-- The executable. -/
def basicFull : ObjInput where
  format := .elf
  debugId := str% "20AD60B0B4C68177552708AA192E77390"
  codeId := some (str% "b060ad20c6b47781552708aa192e7739fac7c84a")
  arch := str% "x86_64"
  hasDebugInfo := true
  name := none
  functions := .ok (functions.map some)
  exceptions := none
  publics := publics
  unwind := some unwindText
  kind := .elf sections

/-- The names of `basic.cpp`. -/
def demangled : Demangler := fun n =>
  if n.mangled = false then some n.text
  else if n.text = str% "_Z3fooi" then some (str% "foo(int)")
  else if n.text = str% "_Z8inline_1i" then some (str% "inline_1(int)")
  else if n.text = str% "_Z8inline_2i" then some (str% "inline_2(int)")
  else if n.text = str% "_Z8inline_3i" then some (str% "inline_3(int)")
  else if n.text = str% "_Z8inline_4i" then some (str% "inline_4(int)")
  else none

/-- No mapping; the source file is not on this machine, so paths are kept as they are. -/
def env : CEnv where
  src := { platform := .linux, canonicalize := true, canon := fun _ => none, mapping := fun _ => none }
  dm := demangled
  detect := fun s => if s.take 2 = str% "_Z" then .other 1 else .unknown
  us := fun l => isort (fun r r' => decide (r.start ≤ r'.start)) l

/-- What the model prints for one file. -/
def printed (inlines : Bool) (o : ObjInput) (name : Str) : Res Str :=
  ObjectInfo.fromObject env inlines .linux o name none none >>= ObjectInfo.display none

/-- The first line of a symbol file of these files. -/
def moduleLine (name : Str) : Str := str% "MODULE Linux x86_64 20AD60B0B4C68177552708AA192E77390 " ++ name ++ str% "
"

/-- `test_data/linux/basic.full.sym`, and `basic.dbg.sym` for `name` = `basic.dbg`, without the first line and the unwind records. -/
def expected (name : Str) : Str :=
  str% "INFO CODE_ID B060AD20C6B47781552708AA192E7739FAC7C84A\n" ++
  str% "FILE 0 /home/calixte/dev/mozilla/dump_syms.calixteman/test_data/linux/basic.cpp\n" ++
  str% "PUBLIC 1000 0 _init\n" ++
  str% "PUBLIC 1020 0 <.plt ELF section in " ++ name ++ str% ">\n" ++
  str% "PUBLIC 1030 0 <.plt.got ELF section in " ++ name ++ str% ">\n" ++
  str% "PUBLIC 1040 0 _start\n" ++
  str% "PUBLIC 1070 0 deregister_tm_clones\n" ++
  str% "PUBLIC 10a0 0 register_tm_clones\n" ++
  str% "PUBLIC 10e0 0 __do_global_dtors_aux\n" ++
  str% "PUBLIC 1120 0 frame_dummy\n" ++
  str% "FUNC 1125 26 0 inline_1(int)\n" ++
  str% "1125 7 2 0\n" ++
  str% "112c 9 3 0\n" ++
  str% "1135 11 4 0\n" ++
  str% "1146 3 5 0\n" ++
  str% "1149 2 6 0\n" ++
  str% "FUNC 114b 2c 0 inline_2(int)\n" ++
  str% "114b d 9 0\n" ++
  str% "1158 1d 10 0\n" ++
  str% "1175 2 11 0\n" ++
  str% "FUNC 1177 33 0 inline_3(int)\n" ++
  str% "1177 13 14 0\n" ++
  str% "118a 1e 15 0\n" ++
  str% "11a8 2 16 0\n" ++
  str% "FUNC 11aa 3a 0 inline_4(int)\n" ++
  str% "11aa 19 19 0\n" ++
  str% "11c3 1f 20 0\n" ++
  str% "11e2 2 21 0\n" ++
  str% "FUNC 11e4 d9 0 foo(int)\n" ++
  str% "11e4 7 24 0\n" ++
  str% "11eb 9 25 0\n" ++
  str% "11f4 3d 26 0\n" ++
  str% "1231 d 27 0\n" ++
  str% "123e c 28 0\n" ++
  str% "124a 69 29 0\n" ++
  str% "12b3 8 31 0\n" ++
  str% "12bb 2 32 0\n" ++
  str% "FUNC 12bd 1c 0 main\n" ++
  str% "12bd f 35 0\n" ++
  str% "12cc b 36 0\n" ++
  str% "12d7 2 37 0\n" ++
  str% "PUBLIC 12e0 0 __libc_csu_init\n" ++
  str% "PUBLIC 1340 0 __libc_csu_fini\n" ++
  str% "PUBLIC 1344 0 _fini\n"

/-- `test_data/linux/basic.full.inlines.sym`, without the first line and the unwind records. -/
def expectedInlines (name : Str) : Str :=
  str% "INFO CODE_ID B060AD20C6B47781552708AA192E7739FAC7C84A\n" ++
  str% "FILE 0 /home/calixte/dev/mozilla/dump_syms.calixteman/test_data/linux/basic.cpp\n" ++
  str% "INLINE_ORIGIN 0 inline_4(int)\n" ++
  str% "INLINE_ORIGIN 1 inline_3(int)\n" ++
  str% "INLINE_ORIGIN 2 inline_2(int)\n" ++
  str% "INLINE_ORIGIN 3 inline_1(int)\n" ++
  str% "PUBLIC 1000 0 _init\n" ++
  str% "PUBLIC 1020 0 <.plt ELF section in " ++ name ++ str% ">\n" ++
  str% "PUBLIC 1030 0 <.plt.got ELF section in " ++ name ++ str% ">\n" ++
  str% "PUBLIC 1040 0 _start\n" ++
  str% "PUBLIC 1070 0 deregister_tm_clones\n" ++
  str% "PUBLIC 10a0 0 register_tm_clones\n" ++
  str% "PUBLIC 10e0 0 __do_global_dtors_aux\n" ++
  str% "PUBLIC 1120 0 frame_dummy\n" ++
  str% "FUNC 1125 26 0 inline_1(int)\n" ++
  str% "1125 7 2 0\n" ++
  str% "112c 9 3 0\n" ++
  str% "1135 11 4 0\n" ++
  str% "1146 3 5 0\n" ++
  str% "1149 2 6 0\n" ++
  str% "FUNC 114b 2c 0 inline_2(int)\n" ++
  str% "INLINE 0 10 0 3 1158 1d\n" ++
  str% "114b d 9 0\n" ++
  str% "1158 9 3 0\n" ++
  str% "1161 11 4 0\n" ++
  str% "1172 3 5 0\n" ++
  str% "1175 2 11 0\n" ++
  str% "FUNC 1177 33 0 inline_3(int)\n" ++
  str% "INLINE 0 15 0 2 118a 1e\n" ++
  str% "INLINE 1 10 0 3 118a 1d\n" ++
  str% "1177 13 14 0\n" ++
  str% "118a 9 3 0\n" ++
  str% "1193 11 4 0\n" ++
  str% "11a4 3 5 0\n" ++
  str% "11a7 1 10 0\n" ++
  str% "11a8 2 16 0\n" ++
  str% "FUNC 11aa 3a 0 inline_4(int)\n" ++
  str% "INLINE 0 20 0 1 11c3 1f\n" ++
  str% "INLINE 1 15 0 2 11c3 1e\n" ++
  str% "INLINE 2 10 0 3 11c3 1d\n" ++
  str% "11aa 19 19 0\n" ++
  str% "11c3 9 3 0\n" ++
  str% "11cc 11 4 0\n" ++
  str% "11dd 3 5 0\n" ++
  str% "11e0 1 10 0\n" ++
  str% "11e1 1 15 0\n" ++
  str% "11e2 2 21 0\n" ++
  str% "FUNC 11e4 d9 0 foo(int)\n" ++
  str% "INLINE 0 26 0 0 120e 20\n" ++
  str% "INLINE 1 20 0 1 120e 1f 1265 1f\n" ++
  str% "INLINE 2 15 0 2 120e 1e 1265 1e\n" ++
  str% "INLINE 3 10 0 3 120e 1d 1265 1d\n" ++
  str% "INLINE 0 29 0 0 1265 20\n" ++
  str% "INLINE 0 29 0 2 1292 1e\n" ++
  str% "INLINE 1 10 0 3 1292 1d\n" ++
  str% "11e4 7 24 0\n" ++
  str% "11eb 9 25 0\n" ++
  str% "11f4 1a 26 0\n" ++
  str% "120e 9 3 0\n" ++
  str% "1217 11 4 0\n" ++
  str% "1228 3 5 0\n" ++
  str% "122b 1 10 0\n" ++
  str% "122c 1 15 0\n" ++
  str% "122d 1 20 0\n" ++
  str% "122e 3 26 0\n" ++
  str% "1231 d 27 0\n" ++
  str% "123e c 28 0\n" ++
  str% "124a 1b 29 0\n" ++
  str% "1265 9 3 0\n" ++
  str% "126e 11 4 0\n" ++
  str% "127f 3 5 0\n" ++
  str% "1282 1 10 0\n" ++
  str% "1283 1 15 0\n" ++
  str% "1284 1 20 0\n" ++
  str% "1285 d 29 0\n" ++
  str% "1292 9 3 0\n" ++
  str% "129b 11 4 0\n" ++
  str% "12ac 3 5 0\n" ++
  str% "12af 1 10 0\n" ++
  str% "12b0 3 29 0\n" ++
  str% "12b3 8 31 0\n" ++
  str% "12bb 2 32 0\n" ++
  str% "FUNC 12bd 1c 0 main\n" ++
  str% "12bd f 35 0\n" ++
  str% "12cc b 36 0\n" ++
  str% "12d7 2 37 0\n" ++
  str% "PUBLIC 12e0 0 __libc_csu_init\n" ++
  str% "PUBLIC 1340 0 __libc_csu_fini\n" ++
  str% "PUBLIC 1344 0 _fini\n"

/-- src/action.rs:180-207 `test_elf_full`. -/
theorem elf_full : printed false basicFull (str% "basic.full") =
    .ok (moduleLine (str% "basic.full") ++ expected (str% "basic.full") ++ unwindText) := by decide +kernel

/-- src/action.rs:209-236 `test_elf_full_with_inlines`. -/
theorem elf_full_with_inlines : printed true basicFull (str% "basic.full") =
    .ok (moduleLine (str% "basic.full") ++ expectedInlines (str% "basic.full") ++ unwindText) := by decide +kernel

/-- `basic.stripped`: no debug information and no symbols, but the unwind information. -/
def basicStripped : ObjInput :=
  { basicFull with hasDebugInfo := false, functions := .ok [], publics := [],
                   kind := .elf (sections.take 26 ++ [{ name := some (str% ".shstrtab"), addr := 0, executable := false, offset := 0x3045, size := 0xed }]) }

/-- `basic.dbg`: the debug information and the symbols, but no unwind information (the headers of all sections remain). -/
def basicDbg : ObjInput := { basicFull with unwind := none }

/-- What the model prints for two files merged. -/
def merged (inlines : Bool) (o₁ : ObjInput) (name₁ : Str) (o₂ : ObjInput) (name₂ : Str) : Res Str := do
  let i₁ ← ObjectInfo.fromObject env inlines .linux o₁ name₁ none none
  let i₂ ← ObjectInfo.fromObject env inlines .linux o₂ name₂ none none
  (← ObjectInfo.merge id i₁ i₂).display none

/-- src/action.rs:238-277 `test_elf_stripped_dbg`. -/
theorem elf_stripped_dbg : merged true basicStripped (str% "basic.stripped") basicDbg (str% "basic.dbg") =
    .ok (moduleLine (str% "basic.stripped") ++ expectedInlines (str% "basic.dbg") ++ unwindText) := by decide +kernel

/-- src/action.rs:279-309 `test_elf_dbg_stripped`. -/
theorem elf_dbg_stripped : merged false basicDbg (str% "basic.dbg") basicStripped (str% "basic.stripped") =
    .ok (moduleLine (str% "basic.stripped") ++ expected (str% "basic.dbg") ++ unwindText) := by decide +kernel

/-- `basic.minidebuginfo`: the executable without symbols, and a packed second executable with the function symbols (the unpacked data are
represented by one byte). -/
def basicMini : ObjInput :=
  { basicStripped with
    kind := .elf (sections.take 26 ++ [{ name := some (str% ".gnu_debugdata"), addr := 0, executable := false, offset := 0x3045, size := 0x35c },
                                       { name := some (str% ".shstrtab"), addr := 0, executable := false, offset := 0x33a1, size := 0xfc }])
    data := List.replicate 15264 0
    unxz := fun d => if d.length = 0x35c then some [1] else none
    parsePublics := fun d => if d = [1] then some publics else none }

/-- `test_data/linux/basic.minidebuginfo.sym`, without the first line and the unwind records. -/
def expectedMini : Str :=
  str% "INFO CODE_ID B060AD20C6B47781552708AA192E7739FAC7C84A\n" ++
  str% "PUBLIC 1000 0 _init\n" ++
  str% "PUBLIC 1020 0 <.plt ELF section in basic.minidebuginfo>\n" ++
  str% "PUBLIC 1030 0 <.plt.got ELF section in basic.minidebuginfo>\n" ++
  str% "PUBLIC 1040 0 _start\n" ++
  str% "PUBLIC 1070 0 deregister_tm_clones\n" ++
  str% "PUBLIC 10a0 0 register_tm_clones\n" ++
  str% "PUBLIC 10e0 0 __do_global_dtors_aux\n" ++
  str% "PUBLIC 1120 0 frame_dummy\n" ++
  str% "PUBLIC 1125 0 inline_1(int)\n" ++
  str% "PUBLIC 114b 0 inline_2(int)\n" ++
  str% "PUBLIC 1177 0 inline_3(int)\n" ++
  str% "PUBLIC 11aa 0 inline_4(int)\n" ++
  str% "PUBLIC 11e4 0 foo(int)\n" ++
  str% "PUBLIC 12bd 0 main\n" ++
  str% "PUBLIC 12e0 0 __libc_csu_init\n" ++
  str% "PUBLIC 1340 0 __libc_csu_fini\n" ++
  str% "PUBLIC 1344 0 _fini\n"

/-- src/action.rs:340-367 `test_elf_minidebuginfo`. -/
theorem elf_minidebuginfo : printed true basicMini (str% "basic.minidebuginfo") =
    .ok (moduleLine (str% "basic.minidebuginfo") ++ expectedMini ++ unwindText) := by decide +kernel

mutual
/-- The same function without what `dwz` moves to another file: the compilation directory and, in inlined calls, the name. -/
def stripFunc (top : Bool) : Func → Func
  | .mk a s n _ ls is => .mk a s (if top then n else ⟨[], false, .unknown⟩) ⟨(0, 0), []⟩ ls (stripFuncs is)
def stripFuncs : List Func → List Func
  | [] => []
  | f :: fs => stripFunc false f :: stripFuncs fs
end

/-- `basic.dwz`: debug information that refers to a second file, which the tool does not read.  The names of the functions that are not inlined come
from the symbols. -/
def basicDwz : ObjInput :=
  { basicFull with functions := .ok (functions.map fun f => some (stripFunc true f)), unwind := none }

/-- `test_data/linux/basic.dwz.inlines.sym`, without the first line. -/
def expectedDwz : Str :=
  str% "INFO CODE_ID B060AD20C6B47781552708AA192E7739FAC7C84A\n" ++
  str% "FILE 0 /basic.cpp\n" ++
  str% "INLINE_ORIGIN 0 <name omitted>\n" ++
  str% "PUBLIC 1000 0 _init\n" ++
  str% "PUBLIC 1020 0 <.plt ELF section in basic.dwz>\n" ++
  str% "PUBLIC 1030 0 <.plt.got ELF section in basic.dwz>\n" ++
  str% "PUBLIC 1040 0 _start\n" ++
  str% "PUBLIC 1070 0 deregister_tm_clones\n" ++
  str% "PUBLIC 10a0 0 register_tm_clones\n" ++
  str% "PUBLIC 10e0 0 __do_global_dtors_aux\n" ++
  str% "PUBLIC 1120 0 frame_dummy\n" ++
  str% "FUNC 1125 26 0 inline_1(int)\n" ++
  str% "1125 7 2 0\n" ++
  str% "112c 9 3 0\n" ++
  str% "1135 11 4 0\n" ++
  str% "1146 3 5 0\n" ++
  str% "1149 2 6 0\n" ++
  str% "FUNC 114b 2c 0 inline_2(int)\n" ++
  str% "INLINE 0 10 0 0 1158 1d\n" ++
  str% "114b d 9 0\n" ++
  str% "1158 9 3 0\n" ++
  str% "1161 11 4 0\n" ++
  str% "1172 3 5 0\n" ++
  str% "1175 2 11 0\n" ++
  str% "FUNC 1177 33 0 inline_3(int)\n" ++
  str% "INLINE 0 15 0 0 118a 1e\n" ++
  str% "INLINE 1 10 0 0 118a 1d\n" ++
  str% "1177 13 14 0\n" ++
  str% "118a 9 3 0\n" ++
  str% "1193 11 4 0\n" ++
  str% "11a4 3 5 0\n" ++
  str% "11a7 1 10 0\n" ++
  str% "11a8 2 16 0\n" ++
  str% "FUNC 11aa 3a 0 inline_4(int)\n" ++
  str% "INLINE 0 20 0 0 11c3 1f\n" ++
  str% "INLINE 1 15 0 0 11c3 1e\n" ++
  str% "INLINE 2 10 0 0 11c3 1d\n" ++
  str% "11aa 19 19 0\n" ++
  str% "11c3 9 3 0\n" ++
  str% "11cc 11 4 0\n" ++
  str% "11dd 3 5 0\n" ++
  str% "11e0 1 10 0\n" ++
  str% "11e1 1 15 0\n" ++
  str% "11e2 2 21 0\n" ++
  str% "FUNC 11e4 d9 0 foo(int)\n" ++
  str% "INLINE 0 26 0 0 120e 20\n" ++
  str% "INLINE 1 20 0 0 120e 1f 1265 1f\n" ++
  str% "INLINE 2 15 0 0 120e 1e 1265 1e\n" ++
  str% "INLINE 3 10 0 0 120e 1d 1265 1d\n" ++
  str% "INLINE 0 29 0 0 1265 20 1292 1e\n" ++
  str% "INLINE 1 10 0 0 1292 1d\n" ++
  str% "11e4 7 24 0\n" ++
  str% "11eb 9 25 0\n" ++
  str% "11f4 1a 26 0\n" ++
  str% "120e 9 3 0\n" ++
  str% "1217 11 4 0\n" ++
  str% "1228 3 5 0\n" ++
  str% "122b 1 10 0\n" ++
  str% "122c 1 15 0\n" ++
  str% "122d 1 20 0\n" ++
  str% "122e 3 26 0\n" ++
  str% "1231 d 27 0\n" ++
  str% "123e c 28 0\n" ++
  str% "124a 1b 29 0\n" ++
  str% "1265 9 3 0\n" ++
  str% "126e 11 4 0\n" ++
  str% "127f 3 5 0\n" ++
  str% "1282 1 10 0\n" ++
  str% "1283 1 15 0\n" ++
  str% "1284 1 20 0\n" ++
  str% "1285 d 29 0\n" ++
  str% "1292 9 3 0\n" ++
  str% "129b 11 4 0\n" ++
  str% "12ac 3 5 0\n" ++
  str% "12af 1 10 0\n" ++
  str% "12b0 3 29 0\n" ++
  str% "12b3 8 31 0\n" ++
  str% "12bb 2 32 0\n" ++
  str% "FUNC 12bd 1c 0 main\n" ++
  str% "12bd f 35 0\n" ++
  str% "12cc b 36 0\n" ++
  str% "12d7 2 37 0\n" ++
  str% "PUBLIC 12e0 0 __libc_csu_init\n" ++
  str% "PUBLIC 1340 0 __libc_csu_fini\n" ++
  str% "PUBLIC 1344 0 _fini\n"

/-- src/action.rs:311-338 `test_elf_dwz_with_inlines`.  As the inlined calls have no name, calls of different functions count as one site. -/
theorem elf_dwz_with_inlines : printed true basicDwz (str% "basic.dwz") = .ok (moduleLine (str% "basic.dwz") ++ expectedDwz) := by decide +kernel

/-- Symbolication with the expected file: an address inside `inline_1` inlined, through three more calls, into `foo`. -/
example : (Reader.readSymFile (moduleLine (str% "basic.full") ++ expectedInlines (str% "basic.full") ++ unwindText) >>= fun f =>
      (f.framesAt 0x1267).map fun l => l.map fun x => (x.function, x.line)) =
    some [(str% "foo(int)", 29), (str% "inline_4(int)", 20), (str% "inline_3(int)", 15), (str% "inline_2(int)", 10), (str% "inline_1(int)", 3)] := by
  decide +kernel

end Golden
end DumpSyms
