# Formal model of mozilla/dump_syms in Lean 4

## Trusted base

* Lean 4.33.0's kernel. Each property theorem depends on at most `propext`, `Classical.choice`, `Quot.sound`
  (`lean/Verif/Axioms.lean` looks at every declaration and makes the build fail otherwise). No axioms of our own, no `sorry`, no `native_decide`/`bv_decide`.
* The reading of /repo: the model was transcribed by hand; every definition cites the file and lines it models.
* The behaviour of the outside world, given as parameters (never axioms) of the definitions and theorems: the symbolic/goblin
  parsers (an object is a record of what the parser yields), the demangler, the regex engine of `mapping.rs`, SHA-512,
  HTTP servers, the file system (a finite map), hash-table iteration order (any permutation), the unstable sort (any sorting
  permutation), the thread scheduler (any interleaving of atomic steps).
* The descriptions in the model of what library code does: `std::path`, `BufWriter`, `str` methods, and the part of `clap` that `cli()` uses.

## Conventions

* `u32`/`u64` values are `Nat`; `x as u32` is `x % 2^32`; unchecked `+` on u32 is modelled as wrapping (the release profile)
  and theorems say where no wrap can happen (there debug and release builds agree; `Model/Checked` has the functions of the collection and
  of merging as a build with overflow checks runs them, see C102, and `Model/CheckedRun` and `Model/WinChecked` the whole program, see C133 and C134).
* A panic or an `Err` is an explicit value (`Res.panic`, `Res.err`).
* Strings are `List Char` (`Str`); where bytes matter (`mapping.rs`), `List UInt8` through Lean's own UTF-8 encoder.
* `BTreeMap` is a sorted association list (`SMap`); `HashMap` is an association list whose iteration order is a parameter
  wherever the code iterates over it.
* `std::path` is modelled for Unix, on strings (`Base/Path`), and for Windows (`Base/WinPath`) where source paths are normalized there and for C104, C105 and C107 to C116, C119 to C124, C126 to C132, C134 and C136. Paths are compared as texts: that Windows does not tell apart names that differ in case only is modelled for what is written (`Model/WinFold`, C132) and not for what is read.

## Layout

* `Verif/Base/*`   numbers, strings, paths, UTF-8, maps, sorting, `Res`.
* `Verif/Model/*`  the model, one file per Rust file or group of functions.
* `Verif/Spec/*`   small independent specifications used in the statements.
* `Verif/Proof/*`  helper lemmas.
* `Verif/Props/*`  the property theorems (`C01_…`), with non-vacuity examples and witnesses.
* `Verif/Axioms.lean` the check of the axioms.

## What is modelled

| Rust file | model | left out |
|-----------|-------|----------|
| `line.rs` | `Model/Line` | `Debug` impls |
| `inline_origins.rs` | `Model/InlineOrigins` | |
| `source.rs` | `Model/Source` | the pointer used as cache key is a number; that a key can dangle is C09's witness |
| `collector.rs` | `Model/Collector` | `debug_function` (printing for developers) |
| `symbol.rs` | `Model/Symbol` | unpacking `.gnu_debugdata` and parsing what is unpacked (parameters) |
| `object_info.rs` | `Model/ObjectInfo` | getters |
| `common.rs` | `Model/Common`, `Model/Cli` | |
| `platform.rs` | `Model/Platform` | |
| `utils.rs` | `Model/Utils`, `Model/Files`, `Model/WinHost`, `Model/WinSearch` | the decoding of cabinets (parameter) |
| `mapping.rs` | `Model/Mapping`, `Model/MappingFile` | the reader of JSON text, the regular expression engine and SHA-512 (parameters) |
| `cache.rs` | `Model/Cache`, `Model/WinCache` | HTTP (parameter), logging |
| `windows/utils.rs` | `Model/WinUtils`, `Model/WinSearch`, `Model/WinCache` | |
| `windows/pdb.rs`, `mac.rs`, `linux.rs` | `Model/Dumper` | the parsers of symbolic and goblin (parameters) |
| `dumper.rs` | `Model/Output` (writing), `Model/Writing` (writing call by call), `Model/Dumper` (one file), `Model/CheckedRun` (one file and several in a build with overflow checks), `Model/WinChecked` (the same on Windows), `Model/WinDumper` (one file on Windows), `Model/WinRun` (several files on Windows), `Model/WinMoments`, `Model/WinTogether`, `Model/WinOneDisk`, `Model/WinFold` (every moment, several processes, destinations that are also read, a disk that ignores case, on Windows), `Model/Threads` (the threads), `Model/Run` (several files), `Model/Together` (several processes), `Model/OneDisk` (destinations that are also read), `Model/Offline` (without `http`, `Config::with_output`), `Model/WinOffline` (without `http` on Windows) | |
| `action.rs`, `main.rs` | `Model/Run`, `Model/WinRun`, `Model/Main`, `Model/Cli` (command line), `Model/Builds` (the command line in every build), `Model/Log` (level of the logger) | other logging, the texts of help and errors; `clap` is described as far as used |

One coarse step: between two accesses to what is shared (channel, mutex, counter, and the calls that create and write files) a worker does its
work in one step.  What a worker reads for one input comes from one state of the disk; other workers may have put downloads, complete or not,
into the caches by then (`Meanwhile`).  A `write` call takes any number of bytes, at least one; what the file system does between two calls is not modelled (no
other process writes except in `Model/Together` and `Model/WinTogether`, and a kill of the process does not lose what a call has written).

## How the model was compared with the code

* `Props/UnitTests`: every unit test of /repo that reads no binary file, with the inputs and results of the Rust test, evaluated on the model.
* `Props/StdPath`: the tables of the tests of `std::path` in the Rust library (decompositions, `push` and `set_extension`, for Unix and Windows), written down from
  memory and evaluated on `Base/Path` and `Base/WinPath`.
* `Props/Golden`: the tests of `action.rs` on `test_data/linux` (`basic.full` without and with inlined calls, `basic.stripped` merged with
  `basic.dbg` in both orders, `basic.minidebuginfo`, `basic.dwz`). The debug information of the executable, as `readelf` prints it, is put through the
  model, which prints the expected symbol files byte for byte.
* `Props/GoldenPe`: likewise the tests of `windows/pdb.rs` on `basic64-dwarf.dll` and `basic32-dwarf.dll` (DWARF data in PE files, exported symbols,
  exception table). One name differs: the expected files call the last PUBLIC record `<unknown>`, the code and the model `<unknown in basic64-dwarf.dll>`;
  the Rust tests do not compare names of PUBLIC records.
* `compare/windows.py` with `Compare.lean` (not part of the proofs): the tests of `windows/pdb.rs` on `dump_syms_regtest64`, `basic32-min`, `basic32` (PDB
  files, the last one in a cabinet) and `mozwer` (a PE file without PDB). The script decodes the files (procedures, public symbols, line tables, exports,
  exception table) and runs the model on them. All of the 36 082 expected lines without unwind records come out, in the same order, with two
  exceptions: the name of the last PUBLIC record (as above), and 1542 names of `basic32-min` that start with `?`, which the script does not
  demangle (their addresses, multiplicities and parameter sizes agree). The names of functions with type information are taken from the expected file, as the script
  does not read types. The remaining tests download the PDB file.
* The reader of symbol files in `Spec/Reader` reads all 16 expected `.sym` files of `test_data`, and the model's printer turns what it reads
  into the same bytes again (checked by running it, not part of the build).

## Plan per property

| id | model | statement / proof idea |
|----|-------|------------------------|
| C01 | `Model/Line` | fold of insertions; sortedness flag invariant by induction; stable sort is a sorted, order-preserving permutation |
| C02 | `Model/Line` | induction over the sorted list; telescoping lengths; reader's lookup spec |
| C03 | `Model/Line` | `dedup_by` loop invariant: coverage, order, non-adjacency |
| C04 | `Model/Line` | invariant: no call site has an empty range list; print succeeds; order by sort lemma; ties by stability of the sort |
| C05, C06 | `Model/InlineOrigins` | interning-table invariant by induction over requests; demangler is a parameter |
| C07–C09 | `Model/Source`, `Model/Collector` | refinement of the three tables to one path table; collector only issues get_id/get_true_id pairs |
| C10 | `Model/Collector` | induction over the function list |
| C11 | `Model/Collector` | induction over the line table |
| C12–C14 | `Model/Collector`, `Spec/Inline` | induction over the function tree; two-pointer walk invariant; spec = innermost covering inlinee |
| C15–C17 | `Model/Collector`, `Model/Symbol` | induction over the input lists with map lookups |
| C18 | `Model/ObjectInfo` | id-bound invariant for collection and for any merge tree |
| C19–C25 | `Model/ObjectInfo`, `Spec/Merge` | case analysis; loop over the right map by induction; C21 false for equal counts, C22 false for a third merge (witnesses) |
| C26 | `Model/ObjectInfo`, `Spec/Reader` | independent line-based reader; round trip by induction |
| C27 | `Model/ObjectInfo` | key = address invariant |
| C28–C30 | `Model/Output` | file-system model; C30 false (buffered tail lost on drop): witness + theorem for what holds |
| C31, C32 | `Model/Utils`, `Base/Path` | path model; C32 false for module name `..`: witness + theorem for other names |
| C33–C38 | `Model/Mapping` | scanner invariant; UTF-8 slicing at ASCII positions; cache refinement; C38 false (panic witness) |
| C39, C40 | `Model/Utils`, `Model/Platform` | component-stack spec |
| C41, C42 | `Model/Symbol` | both directions against `Spec/Decorated`; C42 false (witness), exact panic condition |
| C43 | `Model/WinUtils`, `Spec/WinFiles` | loop over four extensions against an arbitrary directory |
| C44–C47 | `Model/Cache`, `Spec/Cache`, `Spec/Search` | file-system + server parameters; C47 false (crash witness) |
| C48–C53 | `Model/Threads`, `Spec/Threads` | transition system (main, workers, bounded queue, counter, lock, results); inductive invariants; C51, C52 false (witness schedules), exact characterisation of stuck states; when a run can hang and when it can return (`C51_hangs_iff`, `C51_can_return_iff`) |
| C54 | `Model/Common` | regex as a language; leftmost match to the end of text |
| C55, C64 | `Model/Main`, `Model/Run` (all options) | C55's last clause false for embedded newlines (witness) |
| C56 | `Model/Dumper` | list search |
| C57–C59 | `Model/WinUtils`, `Model/Cache`, `Spec/WinFiles` | search order against an arbitrary disk |
| C60, C61, C63 | `Model/Dumper` | case analysis of the dispatch on the format |
| C62, C65 | `Model/Dumper`, `Model/Output` | composition of reading and C28 |
| C66 | `Model/ObjectInfo` | two merges under two hash orders related by a renumbering |
| C67 | all of the above | the reader of C26 applied to the printed text, looked up by address, against `Spec/Frames` on the input |
| C68, C69 | `Model/Run` | C49, C50 and C28 composed; the places of different debug ids differ |
| C70, C71 | `Model/Run` | induction over the files; case analysis of the exit |
| C72 | `Model/Source` | path joining against `Spec/Paths`; C72 false for absolute names without directory |
| C73, C74 | `Model/Dumper` | which object is dumped (C81), then C26; C74 false for a PE without PDB |
| C75 | `Model/Collector`, `Model/InlineOrigins` | both ways of naming against `Spec/Names` |
| C76 | `Model/Symbol`, `Model/ObjectInfo` | the first `.gnu_debugdata` section; collecting publics distributes over appending |
| C77 | `Model/Files` | case analysis of the disk; the first entry against `Spec/Reading` |
| C78 | `Model/ObjectInfo`, `Model/Output` | records of the merge (C22, C23) read back (C26); a lookup depends on the records only (`Spec/Frames`) |
| C79 | `Model/Source`, `Model/Mapping`, `Model/Dumper` | the generators against the configured rules (`Spec/Rules`), composed with C72 and C26; false for unreadable files (witness) |
| C80 | `Model/Cache` | both directions against `Spec/Search` (places in caches, addresses asked for, answers); false for the order of servers (witness) |
| C81 | `Model/Dumper` | C43, C44, C57, C58, C77 and C80 composed, both directions against `Spec/Inputs`; the only error of the collection is that of the debug session (`Proof/Errless`) |
| C82 | `Model/ObjectInfo`, `Model/Collector`, `Model/Symbol` | an invariant kept by each public symbol added (`Spec/Records`), composed with C10, C16, C17 and C26 |
| C83 | `Model/ObjectInfo`, `Model/Output` | the names of records by what they stand for (C82), paths by C79, and the header; each must be on one line (`Spec/Plain`) |
| C84 | `Model/Run` and all it uses | C81 for what is dumped, C83 and C26 for reading back, C67, C82, C73 and C79 for the contents (`Spec/SymbolFile`), C62 and C64 for what is written |
| C85 | `Model/Run`, `Model/Threads` and all they use | every schedule that ends: C48, C68 and C51 for what is written where, an invariant of all modules that can be made by merging, C78 and C84 for what their texts say; `C85_can_end_iff`: when the program can end at all |
| C86 | `Model/Run` and all it uses | every panic the model can reach in a run on one file traced to its cause (`Spec/Crash`), both directions for the causes before the dump and, when the disk has room, for writing (`Props/CrashWrite`); false (witness) |
| C87 | `Model/Cli` | a parser with the table of arguments of `cli()`, both directions against the ways to write a command line (`Spec/CommandLine`) |
| C88 | `Model/Offline` | the two variants compared format by format, and the runs of both programs over several files; false for a PE whose PDB is found (witness), proved for a PE without one |
| C89 | `Model/Writing`, `Model/Run` | an invariant of every moment of a run, writes being made call by call by workers at the same time; false for an output file of several modules (witness) |
| C90 | `Model/Threads`, `Model/Run` | the causes of every crash of a run on several files, and inputs that make every end a crash; false (witnesses), and the same inputs can crash or hang |
| C91 | `Model/ObjectInfo`, `Model/Dumper`, `Model/Run` | two successful runs that differ in `--inlines` and the path mappings: same MODULE, INFO, STACK, FUNC and PUBLIC records; with the same `--inlines` only the paths of the FILE records differ, and they are mapped from the same paths |
| C92 | `Model/Offline`, `Model/Cli`, `Model/Run` | the defaults of the library are those of a command line with `--check-cfi`, `--inlines` and `-j 1` |
| C93 | `Model/Dumper`, `Model/Cache`, `Model/WinUtils`, `Model/Output` | a run on one file repeated on what it left gives the same module, outcome and files, without a request when the download was cached; what is written does not depend on the earlier contents. `C93_full_disk_witness` shows that room on the disk is needed. Files read and destinations are kept apart, so running again when an output was written over an input is not covered (C106 covers the run itself) |
| C94 | `Model/Threads`, `Model/Run`, `Model/Output` | `stored_exactly`: a run over files with different debug ids stores the symbol file of each one and touches nothing else; `C94_same`: so two such runs leave the same, whatever the order of the files and the number of jobs. About runs that end (C51) and store into a directory |
| C95 | `Model/Threads`, `Model/Log` | `C95_reported`: a run over several files that returned logged no error exactly when it read every input and wrote every module; `C95_printed`: the errors are printed unless `--verbose off`; `C95_levels`, `C95_bound`. Witnesses: with `--verbose off` a run that did nothing says nothing and ends with status 0; several failures may give one line |
| C96 | `Model/ObjectInfo`, `Model/Threads` | `C96_times`: what a run over several files writes for a module that several of them give (with the same dump) is the module `times` their number; `C96_printed`: how its symbol file differs from the one of the module given once (mark on FUNC records, INLINE_ORIGIN and STACK records repeated) and that lookups find the same frames. Witness: the two texts |
| C97 | `Model/Run` (`Meanwhile`), `Model/Cache` (`StoppedDisk`) | False: `C97_lost_witness`, `C97_crash_witness`. `C97_other_formats_partial`, `C97_no_server_partial`: inputs that are neither PE nor PDB files, and all inputs without a symbol server, give what they give alone; `C97_finished_partial`: so does an input given again when its download has ended |
| C98 | `Model/Together`, `Model/Writing` | invariant over all interleavings: each byte of the file is right or still to be written by a process that has opened it |
| C99 | `Model/Run`, `Model/Dumper`, `Model/Threads` | `single_exactly`: a run on one of the files stores its symbol file and touches nothing else; so (`C99_one_by_one`) runs on one file after the other leave what a run over all of them leaves, and (`C99_again`) doing it again changes nothing |
| C100 | `Model/Source`, `Model/Dumper`, `Model/Run` | what is made of an object depends on the host only through the paths of its source files; false in general (witness), true when the paths are recorded alike, hence for PE and PDB files on all machines but Windows |
| C101 | `Model/Collector`, `Model/ObjectInfo` | counting what each step of the collection and each merge adds; the count of the text is that of the object (C26) |
| C102 | `Model/Checked` | the functions that add or subtract once more, with overflow checks; either both agree or the checked one crashes, and it cannot crash when everything ends below 2^32; false otherwise (witness) |
| C103 | `Model/MappingFile`, `Model/Mapping` | the derived deserialization written out over JSON values; a loop over the entries of an object finds each field exactly once; then all steps of `PathMappings::new` |
| C104 | `Base/WinPath`, `Model/WinHost` | `get_path_for_sym` over `std::path` for Windows; for proper names all pushes append a name; false for drives, `..` and separators (witnesses) |
| C105 | `Base/WinPath`, `Model/WinHost`, `Model/Source` | an invariant of the loop: the path so far is a prefix, a root and proper names; `push` and `pop` keep it; the result is also given as text for each kind of prefix, verbatim ones included; false for names that start with a drive and for verbatim names with `/` (witnesses) |
| C106 | `Model/OneDisk`, `Model/Threads`, `Model/Writing` | an invariant of every moment: before the coordinator is chosen nothing is written, after it nothing is read; so reading what is on the disk at that moment gives what it gave at the start |
| C107 | `Base/WinPath`, `Model/WinSearch` | `C107_file`: the name of a file behind any directory part is found again by `file_name`, so cabinets are searched for the right entry; `C107_bundle`: directories |
| C108 | `Base/WinPath`, `Model/WinSearch` | each round of the loop keeps the directory and the base name of the path that is modified |
| C109 | `Base/WinPath`, `Model/WinSearch` | `set_file_name` leaves the directory of the path, given as text; the four places are then tried in order; false for the current directory and for names that start with a drive (witnesses) |
| C110 | `Base/WinPath`, `Model/WinCache`, `Model/Cache` | a cache path is a prefix, a root and names, so three pushes give the text `CACHE\BASE\ID\NAME` and `parent` gives back its directory; the rest as for C46 and C80 |
| C111 | `Model/WinCache`, `Model/WinSearch` | C109 and C110 put together |
| C112 | `Model/WinDumper` | C81 again with C107, C108, C110 and C111 in the place of their Unix counterparts |
| C113 | `Model/WinDumper`, `Model/Output` | the place in the store is three pushes as in a cache (C110), so it has a parent; the rest as for C28 to C30; false for names that are a share or start with a drive (witnesses) |
| C114 | `Model/WinRun`, `Model/Threads` | C68, C69 and C73 again: the part about threads is shared, the places of different debug ids in the store differ as their second last names do (C113) |
| C115 | `Model/WinRun`, `Model/Main` | as C64, C70 and C71, with C113 for one file; false for several files (witness) |
| C116 | `Model/WinRun` and all it uses | as C86: every panic of a run on one file traced to its cause (`Spec/WinCrash`), both directions for the causes before the dump and, when the disk has room, for writing (`Props/WinCrashWrite`); false (witness) |
| C117 | `Model/Mapping` | what is wrong with options described by the options alone (`Spec/MapErrors`: the variables first, then the file, then the pairs); both directions |
| C118 | `Model/Run` (`Reports`), `Model/Dumper` | what is said, described by the input, the options and the surroundings (`Spec/Report`); both directions for reading, C30 and C86 for writing |
| C119 | `Model/WinRun` (`Reports`), `Model/WinDumper` | as C118, with C112 and C113 in place of C80 and C30 (`Spec/WinReport`) |
| C120 | `Model/WinRun`, `Model/Threads` | as C90: the part about threads is shared; false (witness) |
| C121 | `Model/WinRun` and all it uses | as C84, with C112 for what is dumped and `store_all` for what is written |
| C122 | `Model/WinRun`, `Model/Threads` and all they use | as C85, with C112 for what is dumped, C114 for the schedules and `store_all` for what is written |
| C123 | `Model/WinRun`, `Model/Threads` and all they use | as C94 and C99, with C122, C114_moments for what is left untouched and C104 for places being apart |
| C124 | `Model/Run` and `Model/WinRun`, side by side | partial: false as C100 is; from C94 and C123 (what each store holds) and C100 for the module of an input |
| C125 | as C85 | partial: false for three inputs that refer to source files (witness); otherwise an invariant of the modules that can be made (`Kept`): the table of paths is complete until a second input that refers to source files is merged, and every FUNC record is the one of the input it comes from, up to renumbering |
| C126 | as C122 | partial: false as C125 is; the invariant of C125 in the runs of C122 |
| C127 | `Model/WinDumper`, `Model/WinCache` | as C93, from the descriptions of C110 to C112: what a search, the search for a PDB and a run found is found again on what they left. `C127_full_disk_witness` shows that room on the disk is needed |
| C128 | `Model/WinMoments`, `Model/Writing`, `Model/WinRun` | as C89, with the places of C112; false for an output file of several modules (`C128_mixed_witness`) |
| C129 | `Model/WinTogether`, `Model/Writing` | as C98, with the places of C112 |
| C130 | `Model/WinOneDisk`, `Model/Threads`, `Model/Writing` | from the same theorems on the threads as C106 |
| C131 | `Model/WinRun` (`Meanwhile`), `Model/Cache` (`StoppedDisk`) | False as C97: `C131_lost_witness`, `C131_crash_witness`. `C131_other_formats_partial`, `C131_no_server_partial`, `C131_finished_partial` as for C97, the last from the descriptions behind C127 |
| C132 | `Model/WinFold`, `Model/WinRun`, `Model/Writing` | the place in a store is split at its separators, which folding keeps, so a shared file means debug ids that differ at most in case; the rest is the invariant behind C114, with the folded calls. `C132_case_witness` shows that ids differing in case only do share a file |
| C133 | `Model/CheckedRun`, `Model/Checked` | the program once more with the checked collection and merging; each function panics or does the same, so up to the first panic the threads take the same steps, and a run in which every worker was joined had no panic. With everything below 2^32 no worker can panic, and the steps are equal |
| C134 | `Model/WinChecked`, `Model/Checked` | as C133, over the Windows model of the program; the steps of the threads are those of C133, and only the reading and the storing differ |
| C135 | `Model/Builds`, `Model/Cli` | the specification of command lines of C87, with the process of each build behind it; the status 2 is given by no run, so it is the one of a refused command line |
| C136 | `Model/WinOffline`, `Model/WinRun` | as C88 with the paths of Windows; the witness is a PE with its PDB beside it, and an id that is ignored |

## Where the code and a property disagree

Each line names the theorem with the concrete input (all checked by the kernel).

* C03: joining ranges adds start and length unchecked; a range that ends past 2^32 is lost (`C03_bound_needed`).
* C09: the cache of paths by pointer may be asked with the pointer of a temporary string (witness for the premise).
* C12: a function whose inlinees leave gaps in the line table, or straddle its lines, gets lines attributed to the wrong frame.
* C15: a symbol that reaches 2^32 has a wrapped end (`C15_wrap_witness`).
* C20: placeholder functions of the larger input are overwritten. C21: with equally many symbols, merging is not symmetric (`Props/MergeOrder` says what the order decides then).
  C22/C23: a merge whose smaller operand is itself merged may drop names. Merging keeps only the left `pe_name`.
* C26: a name with a line break adds records of its own.
* C28: `-s ""` writes nothing and reports success. C30: the last buffer is written when the writer is dropped, and a failure is
  ignored: on a full disk the run reports success and leaves an empty file.
* C32/C63: a module named `..` is stored outside the store (a PE that records `C:\x\..`).
* C38: one mapping list present and empty with the other absent passes the check and panics.
* C39 (notes): `join_paths("", "a.c")` is `/a.c`, and leading `..` components are dropped.
* C42: a decorated name starting with a multi-byte character panics; C59: a file name ending in one panics.
* C46: a full disk, an error page and an unusable cabinet are all cached as if they were the file. C47: an entry is written in
  place, so a stopped run leaves a truncated file that is served later.
* C51: five ways to hang: two workers that both see the counter at two; an input that does not parse; a module that cannot be
  written; one worker with two debug ids (it fills the bounded queue it alone empties); `-j 0`. When nothing fails, every run over two or more
  inputs can hang except with one worker and one debug id (`C51_hangs_iff`), and it can return exactly with two workers or more, or with one worker and one debug id (`C51_can_return_iff`).
* C52/C71: with several files the status is 0 even when no input could be parsed or no module written.
* C55: an accepted `--extra-info` value may contain a line break and so add any record.
* C57: the last directory searched for a PDB is the parent of the current directory. C58: a PDB found beside the PE is taken
  without comparing debug ids. C60: one that cannot be opened is a panic instead of the fallback to the PE.
* C65: `--symbol-server`, `--debug-id` and `--code-id` are ignored when several files are given.
* C66: merging numbers FILE records in the order of a hash table.
* C68: modules with different debug ids overwrite each other in an output file.
* C72: an absolute file name without a directory is put below the compilation directory: `/usr/x.c` compiled in `/c` is recorded
  as `/c/usr/x.c`; a relative name with neither directory is recorded as `/name`; for Windows the empty directory counts as
  absolute, so `x.c` compiled in `C:\b` is recorded as `\x.c`.
* C73 (note): the MODULE record of a Mach-O file says `Mac`, where Breakpad's own dumper says `mac`.
* C75: the C function `f.cold` is shown as `f` when the debug information names it and as `f.cold` when the symbol table does.
* C76: a `.gnu_debugdata` section that reaches past the end of the file makes the run panic.
* C77 (note): a cabinet named `m.DL_` is not searched for `m.dll`; the extension is compared with regard to case.
* C79: a mapping that needs the digest of a source file which exists and cannot be opened makes the run panic; a missing file is only
  reported.
* C80: the server whose answer arrives first is used, not the first one configured.  `check_data` with an empty list of servers would
  never end; no configuration gives one (C44).
* C74: a PE with debug information of its own (MinGW) is dumped without inlines and path mappings, whatever the options say.
* C86: a crash (status 101) instead of an error (status 1): an input, mapping file or cached file that is not there or cannot be read, a malformed
  `--extra-info`, a damaged PE, a damaged single object in a fat binary, an address that is no URL, a cabinet without the file, a
  cache or destination that cannot be created, and the causes of C42, C59, C76 and C79.
* C88, and C136 on Windows: without the `http` feature a PDB beside a PE is not looked for, and `--debug-id` and `--code-id` are ignored without a word.
* C89: with `-o` and inputs of different debug ids two workers can have the file open at the same time; the run ends with status 0 and the file
  holds one module followed by the end of another.
* C90: a worker panics if it cannot read its input or create the output, so a missing input or an output that cannot be created crashes
  the process (status 101) instead of giving an error; if the crashed worker is not the one joined first, the process hangs instead (`C90_crash_or_hang`).
* C97: `copy_in_cache` creates a download at its final place and then fills it, and `search_in_cache` asks only whether there is a file; a worker that needs the
  same PDB meanwhile reads a part of it. It then dumps the PE file without its functions (`C97_lost_witness`), or panics if the download is a cabinet
  (`C97_crash_witness`).
* C98 (note): with different texts for one file (for example other `--extra-info`), two processes can leave a mixture (`C98_mixed_witness`).
* C128, C131: as C89 and C97, on a Windows machine (`C128_mixed_witness`, `C131_lost_witness`, `C131_crash_witness`).
* C100: a source path is normalized only on the platform of the file: `../src/x.c` compiled in `/build/a` is `/build/src/x.c` on Linux and `/build/a/../src/x.c`
  on macOS for an ELF file (`C100_machines_witness`). On a Windows host the model normalizes source paths as Windows does; in the model of whole runs its other paths are joined as on Unix (C104 and C107 to C111 are about the functions, C112 to C116, C119 to C124, C126 to C132, C134 and C136 about runs, in a model of their own).
* C124: for the same reason the same ELF file gives `FILE 0 /build/src/x.c` on Linux and `FILE 0 /build/a/../src/x.c` on a Windows machine (`C124_stores_witness`).
* C125: in a run on three ELF files with one debug id, all with line information, the file merged last can give the lines of the others wrong paths (`C125_many_witness`: line 10 of `/b/x.c` is printed as line 10 of `/c/y.c`). The cause is that of `C22_three_way_witness`; whether it happens depends on the order in which the threads merge.
* C126: the same on a Windows machine (`C126_many_witness`).
* C102: additions of addresses and sizes are unchecked, so an object file with a symbol that reaches 2^32 or a line entry at the end of the 64-bit range crashes a build with
  overflow checks and is dumped with wrapped addresses by the release build (`C102_witness`).
* C104: on Windows a module name that starts with a drive (`C:x.pdb`) makes `PathBuf::push` forget the store: the file is `C:x.sym` (`C104_drive`). `..` and names with `\`
  leave the store as well (`C104_parent`, `C104_separators`).
* C105: on Windows `\x\C:\y` is normalized to `C:y`, which is relative (`C105_witness`); `\\?\C:\a/b`, where `a/b` is one name, is normalized to
  `\\?\C:\a\b` (`C105_verbatim_witness`).
* C109: as for C57, the PDB is looked for beside the current directory and not in it (`C109_cwd_witness`); on Windows a recorded name that starts with a drive,
  like `C:m.pdb`, replaces the directory of the PE (`C109_drive_witness`).
* C113: on Windows an ELF that records `\\s\x` as its name crashes the run when it is stored, as `store.parent().unwrap()` is called on a bare share
  (`C113_crash_witness`); a PE that records `C:\x\D:y.pdb` is stored at `D:y.sym`, outside the store (`C113_escape_witness`).
* C115: on Windows too, several files end with status 0 although the directory of the store could not be made (`C115_several_witness`; C71).
* C116: the crashes of C86 on Windows, and those of the store: a file there that cannot be created, and a module that is named after a share, whose place in the store is in no directory (`C116_witness`).
* C120: the crashes of C90 on Windows, and a module that is named after a share (`C120_witness`).

## Tests of the theorems

`seeded/LOG.jsonl` records changes made to the model in a scratch copy, one at a time, and the theorems that no longer hold.
