{
 "claims": [
  {
   "property": "C01",
   "status": "proved",
   "theorems": [
    "DumpSyms.C01_lines_sorted_complete"
   ],
   "note": ""
  },
  {
   "property": "C02",
   "status": "proved",
   "theorems": [
    "DumpSyms.C02_line_sizes_tile",
    "DumpSyms.C02_reader_lookup",
    "DumpSyms.C02_no_wrap"
   ],
   "note": ""
  },
  {
   "property": "C03",
   "status": "proved",
   "theorems": [
    "DumpSyms.C03_inline_ranges",
    "DumpSyms.C03_no_wrap",
    "DumpSyms.C03_bound_needed",
    "DumpSyms.C03_bound_crash"
   ],
   "note": ""
  },
  {
   "property": "C04",
   "status": "proved",
   "theorems": [
    "DumpSyms.C04_display_no_panic_and_order",
    "DumpSyms.C04_merged_display",
    "DumpSyms.C04_panics_iff"
   ],
   "note": "Id remapping after finalization is covered in the merge theorems."
  },
  {
   "property": "C05",
   "status": "proved",
   "theorems": [
    "DumpSyms.C05_inline_origin_ids"
   ],
   "note": ""
  },
  {
   "property": "C06",
   "status": "proved",
   "theorems": [
    "DumpSyms.C06_origin_no_control",
    "DumpSyms.C06_origin_records"
   ],
   "note": ""
  },
  {
   "property": "C07",
   "status": "proved",
   "theorems": [
    "DumpSyms.C07_file_ids"
   ],
   "note": ""
  },
  {
   "property": "C08",
   "status": "proved",
   "theorems": [
    "DumpSyms.C08_ids_dense"
   ],
   "note": ""
  },
  {
   "property": "C09",
   "status": "proved",
   "theorems": [
    "DumpSyms.C09_cache_transparent",
    "DumpSyms.C09_pointer_reuse_witness"
   ],
   "note": "The witness shows the premise is needed."
  },
  {
   "property": "C10",
   "status": "proved",
   "theorems": [
    "DumpSyms.C10_first_function_wins"
   ],
   "note": ""
  },
  {
   "property": "C100",
   "status": "partial",
   "theorems": [
    "DumpSyms.Run.C100_machines_partial",
    "DumpSyms.Run.C100_windows",
    "DumpSyms.Dumper.C100_object",
    "DumpSyms.Run.C100_machines_witness"
   ],
   "note": "The claim is false: the path of a source file is normalized on the platform of the file and kept as it is elsewhere (C100_machines_witness: an ELF file dumped on Linux and on macOS). Proved: two machines give the same runs whenever the paths are recorded alike, which holds for all PE and PDB files on machines that do not run Windows (C100_windows). On a Windows host the source paths are normalized as on Windows (C105); in this model the other paths of the program are joined as on Unix; runs on Windows with its paths are C112 to C115."
  },
  {
   "property": "C101",
   "status": "proved",
   "theorems": [
    "DumpSyms.C101_linear"
   ],
   "note": "Counts records, not bytes. The text is the one that can be read back (C26), so names without line breaks are assumed as there."
  },
  {
   "property": "C102",
   "status": "partial",
   "theorems": [
    "DumpSyms.C102_object_partial",
    "DumpSyms.C102_merge_partial",
    "DumpSyms.C102_same_or_crash",
    "DumpSyms.C102_merge_same_or_crash",
    "DumpSyms.C102_witness"
   ],
   "note": "The claim is false: when a symbol reaches 2^32 or a line entry 2^64 the build with overflow checks crashes and the release build goes on (C102_witness). Proved: the two builds agree whenever everything in the object file ends below 2^32, and otherwise the only difference is a crash. Stated for the making of an object and for merges; C133 is about the whole program."
  },
  {
   "property": "C103",
   "status": "proved",
   "theorems": [
    "DumpSyms.Mapping.C103_file",
    "DumpSyms.Mapping.C103_accepted"
   ],
   "note": "The reader of JSON text and the syntax of regular expressions are parameters; the deserialization derived for the two structs is modelled. A list of variables is compared by what each name stands for. HashMap order is any permutation."
  },
  {
   "property": "C104",
   "status": "partial",
   "theorems": [
    "DumpSyms.WinHost.C104_store_partial",
    "DumpSyms.WinHost.C104_verbatim",
    "DumpSyms.WinHost.C104_distinct",
    "DumpSyms.WinHost.C104_drive",
    "DumpSyms.WinHost.C104_parent",
    "DumpSyms.WinHost.C104_separators"
   ],
   "note": "The claim is false: a name that starts with a drive, is .. or has separators (an ELF soname is taken as it is) takes the file out of the store (witnesses). Proved for all names and identifiers usable as one Windows path component, every kind of directory, verbatim ones included. These theorems are about get_path_for_sym and PathBuf::push on Windows; C113 and C114 are about whole runs."
  },
  {
   "property": "C105",
   "status": "partial",
   "theorems": [
    "DumpSyms.WinHost.C105_normalize_partial",
    "DumpSyms.WinHost.C105_text_partial",
    "DumpSyms.WinHost.C105_verbatim_partial",
    "DumpSyms.WinHost.C105_verbatim_bare",
    "DumpSyms.WinHost.C105_recorded_partial",
    "DumpSyms.WinHost.C105_recorded_text_partial",
    "DumpSyms.WinHost.C105_recorded_verbatim_partial",
    "DumpSyms.WinHost.C105_witness",
    "DumpSyms.WinHost.C105_verbatim_witness"
   ],
   "note": "The claim is false: a name that starts with a drive replaces what came before it (C105_witness), and a name with / of a verbatim path is split (C105_verbatim_witness). Proved for every path without such names, with the text of the result written out for each kind of prefix (C105_text_partial, C105_verbatim_partial); the recorded theorems are the path recorded for a source file in the model of the program. std::path is written out for Windows in Base/WinPath and checked on the cases of its own tests."
  },
  {
   "property": "C106",
   "status": "proved",
   "theorems": [
    "DumpSyms.Run.C106_several",
    "DumpSyms.Threads.C106_read_first",
    "DumpSyms.Threads.C106_moments",
    "DumpSyms.Run.C106_over_input"
   ],
   "note": "What reading gives may depend in any way on what the destinations hold (real paths, contents of source files, files of caches); it is only required that it is what it was as long as nothing has been written. A run on one file reads before it writes by the order of its statements (Dumper.singleFile)."
  },
  {
   "property": "C107",
   "status": "proved",
   "theorems": [
    "DumpSyms.WinHost.C107_file",
    "DumpSyms.WinHost.C107_bundle"
   ],
   "note": "For paths that are not verbatim; std::path is written out for Windows in Base/WinPath. The decoder of cabinets is a parameter. The names in directories are names Windows allows."
  },
  {
   "property": "C108",
   "status": "proved",
   "theorems": [
    "DumpSyms.WinHost.C108_pe_of_pdb"
   ],
   "note": "For paths that are not verbatim; the parser of PE files is a parameter."
  },
  {
   "property": "C109",
   "status": "partial",
   "theorems": [
    "DumpSyms.WinHost.C109_places_partial",
    "DumpSyms.WinHost.C109_nameless",
    "DumpSyms.WinHost.C109_cwd_witness",
    "DumpSyms.WinHost.C109_drive_witness"
   ],
   "note": "The claim is false, as on Unix (C57): with_file_name replaces the last component of the current directory (C109_cwd_witness); and a recorded name that starts with a drive is looked for on that drive (C109_drive_witness). Proved with the places the code looks at, for every directory that is not verbatim."
  },
  {
   "property": "C11",
   "status": "proved",
   "theorems": [
    "DumpSyms.C11_lines_without_inlines"
   ],
   "note": ""
  },
  {
   "property": "C110",
   "status": "proved",
   "theorems": [
    "DumpSyms.WinHost.C110_search",
    "DumpSyms.WinHost.C110_served_back",
    "DumpSyms.WinHost.C110_keeps_files",
    "DumpSyms.WinHost.C110_configured"
   ],
   "note": "Both directions, and a panic in every other case. For caches and home directories that are not verbatim. The network and the decoder of cabinets are parameters; the disk has room for the download. Which server answers first is part of the network (see C80)."
  },
  {
   "property": "C111",
   "status": "proved",
   "theorems": [
    "DumpSyms.WinHost.C111_source"
   ],
   "note": "Both directions, and a panic in every other case. The places on the disk are those of C109_places_partial (the current directory as the code sees it). As on Unix (C58) the debug id of a PDB found on the disk is not looked at; the statement does not say that it fits."
  },
  {
   "property": "C112",
   "status": "proved",
   "theorems": [
    "DumpSyms.WinHost.C112_complete",
    "DumpSyms.WinHost.C112_sound",
    "DumpSyms.WinHost.C112_run"
   ],
   "note": "Both directions, with the state of the disk and the network log. The parsers, the network and the decoder of cabinets are parameters. For paths, caches and home directories that are not verbatim, directory entries, ids and recorded names that Windows allows in a directory."
  },
  {
   "property": "C113",
   "status": "partial",
   "theorems": [
    "DumpSyms.WinHost.C113_complete_partial",
    "DumpSyms.WinHost.C113_success_partial",
    "DumpSyms.WinHost.C113_nothing_written",
    "DumpSyms.WinHost.C113_no_cfi",
    "DumpSyms.WinHost.C113_names",
    "DumpSyms.WinHost.C113_crash_witness",
    "DumpSyms.WinHost.C113_escape_witness"
   ],
   "note": "The claim is false: an ELF that records a share as its name makes storing crash (C113_crash_witness), a PE that records a PDB name with a drive is stored on that drive and not in the store (C113_escape_witness), and as on Unix a failure to write the last buffer is not noticed (C30). Proved for modules whose name and id are names Windows allows; C113_names says which modules of PE and PDB files have other names."
  },
  {
   "property": "C114",
   "status": "proved",
   "theorems": [
    "DumpSyms.WinHost.C114_stored",
    "DumpSyms.WinHost.C114_one_id",
    "DumpSyms.WinHost.C114_same_as_alone",
    "DumpSyms.WinHost.C114_no_server",
    "DumpSyms.WinHost.C114_moments"
   ],
   "note": "For runs that end and in which nothing goes wrong with writing (C114_moments: for all runs, at every moment). C114_same_as_alone and C114_no_server are without --symbol-server and without ids (C65). C114_one_id is about every destination, when all inputs have one debug id. Paths are compared as texts; that Windows does not tell apart names that differ in case only is not modelled."
  },
  {
   "property": "C115",
   "status": "partial",
   "theorems": [
    "DumpSyms.WinHost.C115_list_arch",
    "DumpSyms.WinHost.C115_config",
    "DumpSyms.WinHost.C115_bad_info",
    "DumpSyms.WinHost.C115_bad_options",
    "DumpSyms.WinHost.C115_status_partial",
    "DumpSyms.WinHost.C115_several_status",
    "DumpSyms.WinHost.C115_several_witness"
   ],
   "note": "The claim is false for several files, as on Unix (C71): status 0 although nothing could be written (witness). Proved for one file up to what C113 is missing, for listing, and for options that are not usable."
  },
  {
   "property": "C116",
   "status": "partial",
   "theorems": [
    "DumpSyms.WinHost.C116_ends",
    "DumpSyms.WinHost.C116_no_name",
    "DumpSyms.WinHost.C116_sure",
    "DumpSyms.WinHost.C116_create",
    "DumpSyms.WinHost.C116_write",
    "DumpSyms.WinHost.C116_crash_partial",
    "DumpSyms.WinHost.C116_witness"
   ],
   "note": "False of the code: C116_witness gives ten crashes, two of them in the store. Proved instead: the run ends in exactly one way with status 0, 1 or 101; the causes in SureCrash and a path without a file name always crash it, with nothing written; a destination that cannot be created always crashes it, and what is written then is stated (C116_create); when the file was read, the store and the names are allowed and the disk has room, writing crashes exactly in the two cases of WritePanics (C116_write); and a crash always has a cause in SureCrash or LateCrash. Assumes that caches have room for what servers send (C46) and the other conditions of Sane; the path, the caches and the home directory are not verbatim."
  },
  {
   "property": "C117",
   "status": "proved",
   "theorems": [
    "DumpSyms.Mapping.C117_options",
    "DumpSyms.Mapping.C117_one"
   ],
   "note": "Both directions: the options are accepted exactly when they are fine, and a message is given exactly when it is about the first thing that is wrong. A mapping file that cannot be opened is a panic and not an error (C86), and sources without destinations or the other way round are a panic when the list that is given is empty, which clap does not allow. The texts of errors from the regular expression and JSON libraries are stand-ins."
  },
  {
   "property": "C118",
   "status": "proved",
   "theorems": [
    "DumpSyms.Dumper.C118_reading",
    "DumpSyms.Run.C118_reported",
    "DumpSyms.Run.C118_cause",
    "DumpSyms.Run.C118_unwritten",
    "DumpSyms.Run.C118_several"
   ],
   "note": "One file: what is wrong with reading, the options or the input is reported exactly as described, in the order in which things are looked at, with status 1 and nothing written (C118_reading, C118_reported); every message has such a cause, or is about writing the module that was made (C118_cause), where missing CFI data and a store directory that cannot be created are always reported (C118_unwritten), and a full destination unless it fails in the last buffer (C30). Several files: only wrong options are reported (C118_several; what goes wrong with a file is logged and not reported, C71). Crashes are C86, listing architectures C70. The texts of errors from parsers, the file system and the regular expression and JSON libraries are parameters or stand-ins. The same conditions on disks and caches as C86."
  },
  {
   "property": "C119",
   "status": "proved",
   "theorems": [
    "DumpSyms.WinHost.C119_reading",
    "DumpSyms.WinHost.C119_reported",
    "DumpSyms.WinHost.C119_cause",
    "DumpSyms.WinHost.C119_unwritten",
    "DumpSyms.WinHost.C119_several"
   ],
   "note": "As C118: for one file, what is wrong with reading, the options or the input is reported exactly as described, with status 1 and nothing written (C119_reading, C119_reported); every message has such a cause or is about writing the module that was made (C119_cause), where missing CFI data and a store directory that cannot be created are always reported (C119_unwritten). For a store that is verbatim or a module whose name or id Windows does not allow, C119_cause says only that the message is one of the two about writing. Several files: only wrong options are reported (C119_several). Crashes are C116. The texts of errors from parsers, the file system and the regular expression and JSON libraries are parameters or stand-ins. The same conditions on disks and caches as C116."
  },
  {
   "property": "C12",
   "status": "proved",
   "theorems": [
    "DumpSyms.C12_innermost_line",
    "DumpSyms.C12_innermost_exists",
    "DumpSyms.C12_gap_witness",
    "DumpSyms.C12_straddle_witness"
   ],
   "note": "The witnesses show that the two shape conditions are needed; real debug information does not always meet them."
  },
  {
   "property": "C120",
   "status": "partial",
   "theorems": [
    "DumpSyms.WinHost.C120_causes_partial",
    "DumpSyms.WinHost.C120_sure",
    "DumpSyms.WinHost.C120_witness"
   ],
   "note": "False: a missing input, a mapping file that cannot be opened and a module named after a share crash the process (C120_witness). C120_causes_partial: every crash has one of seven causes. C120_sure: with a malformed INFO line, a mapping file that cannot be read, or an input that has no last name, cannot be read or cannot be looked into, and no input that only gives an error, every end of the process is a crash with nothing written. The part about threads is that of C90 (it may also hang)."
  },
  {
   "property": "C121",
   "status": "proved",
   "theorems": [
    "DumpSyms.WinHost.C121_process"
   ],
   "note": "As C84_process, with the assumptions of C112 about paths (names that Windows allows, caches that are not verbatim), and that a module to be stored can be (Storable); C113 shows what happens otherwise."
  },
  {
   "property": "C122",
   "status": "proved",
   "theorems": [
    "DumpSyms.WinHost.C122_several",
    "DumpSyms.WinHost.C122_merged",
    "DumpSyms.WinHost.C122_disjoint",
    "DumpSyms.WinHost.C122_one_id",
    "DumpSyms.WinHost.C122_pair",
    "DumpSyms.WinHost.C122_can_end_iff"
   ],
   "note": "As C85, with the assumptions of C112 about paths and that the names and the debug ids of the inputs are names that Windows allows; C113 shows what happens otherwise."
  },
  {
   "property": "C123",
   "status": "proved",
   "theorems": [
    "DumpSyms.WinHost.C123_same",
    "DumpSyms.WinHost.C123_one_by_one",
    "DumpSyms.WinHost.C123_again",
    "DumpSyms.WinHost.stored_exactly",
    "DumpSyms.WinHost.single_exactly"
   ],
   "note": "As C94 and C99, for runs that end (C51) and with the assumptions of C122. One file after the other: without --symbol-server, --debug-id and --code-id, since only the run on a single file searches with them (C65). Paths are compared as texts (see DESIGN.md)."
  },
  {
   "property": "C124",
   "status": "partial",
   "theorems": [
    "DumpSyms.WinHost.C124_stores_partial",
    "DumpSyms.WinHost.C124_one_partial",
    "DumpSyms.WinHost.C124_stores_witness",
    "DumpSyms.WinHost.dumps_moved",
    "DumpSyms.WinHost.stored_machines"
   ],
   "note": "False in general, as C100 is: the paths of an ELF file are resolved on Linux and not on a Windows machine (witness). Proved for inputs whose source paths are recorded alike on both machines (Alike of C100: files of neither platform, or paths that are resolved already), for runs over several files and over one of them, with the assumptions of C85 and C122."
  },
  {
   "property": "C125",
   "status": "partial",
   "theorems": [
    "DumpSyms.Run.C125_many_partial",
    "DumpSyms.Run.C125_one_id_partial",
    "DumpSyms.Run.C125_many_witness",
    "DumpSyms.Run.many_answers",
    "DumpSyms.Run.Possible.kept"
   ],
   "note": "False: after a merge of two files that refer to source files the table of paths is incomplete, and merging the result with a larger file renumbers the files wrongly (witness: a run on three files in which a line of x.c is printed as one of y.c, though merged in another order it would be right). Proved where at most two of the inputs with the debug id refer to source files (for example a file with debug information and its supplement, and any number of stripped ones); carries the assumptions of C85."
  },
  {
   "property": "C126",
   "status": "partial",
   "theorems": [
    "DumpSyms.WinHost.C126_many_partial",
    "DumpSyms.WinHost.C126_one_id_partial",
    "DumpSyms.WinHost.C126_many_witness"
   ],
   "note": "False for the reason of C125 (witness: a run on three files). Proved where at most two of the inputs with the debug id refer to source files; carries the assumptions of C122."
  },
  {
   "property": "C127",
   "status": "proved",
   "theorems": [
    "DumpSyms.WinHost.C127_again",
    "DumpSyms.WinHost.C127_offline",
    "DumpSyms.WinHost.C127_contents",
    "DumpSyms.WinHost.C127_full_disk_witness"
   ],
   "note": "one file; the destinations are not among the files read; names, caches and surroundings as assumed in C112"
  },
  {
   "property": "C128",
   "status": "partial",
   "theorems": [
    "DumpSyms.WinHost.C128_moments_partial",
    "DumpSyms.WinHost.C128_single",
    "DumpSyms.WinHost.C128_beginnings",
    "DumpSyms.WinHost.C128_beginnings_store",
    "DumpSyms.WinHost.C128_store",
    "DumpSyms.WinHost.C128_ends",
    "DumpSyms.WinHost.C128_mixed_witness"
   ],
   "note": "False for an output file or stream that modules of different debug ids are written to: two workers can have it open at the same time (C128_mixed_witness). Proved for one file, for every place of a store, and for every destination that modules of at most one debug id go to, where names and debug ids are file names Windows allows. C128_ends: every end of a dump is one of the moments."
  },
  {
   "property": "C129",
   "status": "proved",
   "theorems": [
    "DumpSyms.WinHost.C129_together",
    "DumpSyms.WinHost.C129_untouched",
    "DumpSyms.WinHost.C129_gap_witness",
    "DumpSyms.WinHost.C129_mixed_witness"
   ],
   "note": "Assumes that directories and files can be created, that there is room, and that names and debug ids are file names Windows allows. Witnesses: before the processes have ended the file may begin with zeros, and two processes with different texts (other header lines) can leave a mixture of both."
  },
  {
   "property": "C13",
   "status": "proved",
   "theorems": [
    "DumpSyms.C13_inline_chain",
    "DumpSyms.C13_chain_exists"
   ],
   "note": ""
  },
  {
   "property": "C130",
   "status": "proved",
   "theorems": [
    "DumpSyms.WinHost.C130_several",
    "DumpSyms.WinHost.C130_read_first",
    "DumpSyms.WinHost.C130_over_input"
   ],
   "note": "What reading gives may depend in any way on what the destinations hold; it is only required that it is what it was as long as nothing has been written. A run on one file reads before it writes by the order of its statements (WinHost.singleFile)."
  },
  {
   "property": "C131",
   "status": "partial",
   "theorems": [
    "DumpSyms.WinHost.C131_other_formats_partial",
    "DumpSyms.WinHost.C131_no_server_partial",
    "DumpSyms.WinHost.C131_finished_partial",
    "DumpSyms.WinHost.parse_meanwhile",
    "DumpSyms.WinHost.C131_lost_witness",
    "DumpSyms.WinHost.C131_crash_witness"
   ],
   "note": "False: a download is written to its final place in the cache, and another worker can read it there half written; its module then lacks its functions, or the run crashes (witnesses). Proved for inputs that are neither PE nor PDB files, without a symbol server, and for downloads that have ended."
  },
  {
   "property": "C132",
   "status": "proved",
   "theorems": [
    "DumpSyms.WinHost.C132_places",
    "DumpSyms.WinHost.C132_told_apart",
    "DumpSyms.WinHost.C132_uuids",
    "DumpSyms.WinHost.C132_stored",
    "DumpSyms.WinHost.C132_moments",
    "DumpSyms.WinHost.C132_streams",
    "DumpSyms.WinHost.C132_case_witness"
   ],
   "note": "Names and debug ids are file names Windows allows, and the directory of the store is not verbatim. C132_case_witness: two inputs with debug ids that differ in case only end in one file; debug ids with a UUID, as the library writes them, differ in more than case (C132_uuids)."
  },
  {
   "property": "C133",
   "status": "proved",
   "theorems": [
    "DumpSyms.CheckedRun.C133_same_or_crash",
    "DumpSyms.CheckedRun.C133_single",
    "DumpSyms.CheckedRun.C133_moments",
    "DumpSyms.CheckedRun.C133_same_partial",
    "DumpSyms.CheckedRun.C133_witness",
    "DumpSyms.CheckedRun.C133_merge_witness",
    "DumpSyms.CheckedRun.C133_kinds_witness"
   ],
   "note": "The sort used for the lines of a function is one that sorts by start. C133_same_partial is the last sentence of the claim, whose bound is needed: C133_witness has a function that reaches 2^32, which the release build dumps and the build with overflow checks crashes on; C133_merge_witness is the same for two files that are merged, and C133_kinds_witness for every kind of file."
  },
  {
   "property": "C134",
   "status": "proved",
   "theorems": [
    "DumpSyms.WinChecked.C134_same_or_crash",
    "DumpSyms.WinChecked.C134_single",
    "DumpSyms.WinChecked.C134_moments",
    "DumpSyms.WinChecked.C134_same_partial",
    "DumpSyms.WinChecked.C134_witness",
    "DumpSyms.WinChecked.C134_merge_witness",
    "DumpSyms.WinChecked.C134_kinds_witness"
   ],
   "note": "The sort used for the lines of a function is one that sorts by start. C134_same_partial is the last sentence of the claim, whose bound is needed, in reading a file (C134_witness, and C134_kinds_witness for every kind of file) and in merging two (C134_merge_witness)."
  },
  {
   "property": "C135",
   "status": "proved",
   "theorems": [
    "DumpSyms.Builds.C135_process",
    "DumpSyms.Builds.C135_refused",
    "DumpSyms.Builds.C135_two",
    "DumpSyms.Builds.C135_codes",
    "DumpSyms.Builds.C135_checked",
    "DumpSyms.Builds.C135_offline",
    "DumpSyms.Builds.C135_offline_windows"
   ],
   "note": "What a command line means is the specification of C87. In C135_checked the sort used for the lines of a function is one that sorts by start."
  },
  {
   "property": "C136",
   "status": "partial",
   "theorems": [
    "DumpSyms.WinOffline.C136_same_partial",
    "DumpSyms.WinOffline.C136_pe",
    "DumpSyms.WinOffline.C136_pe_alone",
    "DumpSyms.WinOffline.C136_program_partial",
    "DumpSyms.WinOffline.C136_program_pe_partial",
    "DumpSyms.WinOffline.C136_program_several_partial",
    "DumpSyms.WinOffline.C136_witness"
   ],
   "note": "False for a PE whose PDB is beside it, as C88 (C136_witness). Proved for every other format and for a PE without a usable PDB, for runs on one file and for the whole program (C136_program_partial, C136_program_pe_partial; C136_program_several_partial for several files, among which a PE without a usable PDB needs no symbol server to be configured)."
  },
  {
   "property": "C14",
   "status": "proved",
   "theorems": [
    "DumpSyms.C14_inline_ranges_once"
   ],
   "note": ""
  },
  {
   "property": "C15",
   "status": "proved",
   "theorems": [
    "DumpSyms.C15_one_public",
    "DumpSyms.C15_publics",
    "DumpSyms.C15_publics_total",
    "DumpSyms.C15_wrap_witness"
   ],
   "note": "A symbol that reaches 2^32 is outside the statement: its end wraps (witness)."
  },
  {
   "property": "C16",
   "status": "proved",
   "theorems": [
    "DumpSyms.C16_placeholders"
   ],
   "note": ""
  },
  {
   "property": "C17",
   "status": "proved",
   "theorems": [
    "DumpSyms.C17_sections",
    "DumpSyms.C17_end_of_module"
   ],
   "note": ""
  },
  {
   "property": "C18",
   "status": "proved",
   "theorems": [
    "DumpSyms.C18_dump_ids_defined",
    "DumpSyms.C18_merge_ids_defined"
   ],
   "note": ""
  },
  {
   "property": "C19",
   "status": "proved",
   "theorems": [
    "DumpSyms.C19_merge_ok_iff"
   ],
   "note": ""
  },
  {
   "property": "C20",
   "status": "partial",
   "theorems": [
    "DumpSyms.C20_exact",
    "DumpSyms.C20_merged_symbols_partial",
    "DumpSyms.C20_placeholder_lost_witness",
    "DumpSyms.C20_real_function_lost_witness"
   ],
   "note": "False of the code for placeholder functions of the larger input (witnesses); proved for all others."
  },
  {
   "property": "C21",
   "status": "partial",
   "theorems": [
    "DumpSyms.C21_merge_comm_partial",
    "DumpSyms.C21_order_witness",
    "DumpSyms.C21_equal_header",
    "DumpSyms.C21_equal_functions"
   ],
   "note": "False when both objects have equally many symbols (witness); proved when the counts differ. With equal counts: C21_equal_header says exactly when the name, the code id and the unwind records do not depend on the order, and C21_equal_functions that of two functions at an address the one given second is kept."
  },
  {
   "property": "C22",
   "status": "proved",
   "theorems": [
    "DumpSyms.C22_merged_paths",
    "DumpSyms.C22_C23_merged_records_partial",
    "DumpSyms.C22_three_way_witness"
   ],
   "note": "Proved for every pair of dumps, as stated; beyond the statement, it fails when the smaller operand is itself a merged object (witness)."
  },
  {
   "property": "C23",
   "status": "partial",
   "theorems": [
    "DumpSyms.C22_C23_merged_records_partial",
    "DumpSyms.C22_three_way_witness"
   ],
   "note": "Proved whenever the smaller operand is a dump (so for every pair of dumps); false when it is itself a merged object (witness)."
  },
  {
   "property": "C24",
   "status": "proved",
   "theorems": [
    "DumpSyms.C24_merged_stack"
   ],
   "note": ""
  },
  {
   "property": "C25",
   "status": "proved",
   "theorems": [
    "DumpSyms.C25_merged_header",
    "DumpSyms.Dumper.C25_dumped"
   ],
   "note": ""
  },
  {
   "property": "C26",
   "status": "proved",
   "theorems": [
    "DumpSyms.C26_round_trip",
    "DumpSyms.C26_newline_witness"
   ],
   "note": ""
  },
  {
   "property": "C27",
   "status": "proved",
   "theorems": [
    "DumpSyms.C27_addresses_increase"
   ],
   "note": ""
  },
  {
   "property": "C28",
   "status": "proved",
   "theorems": [
    "DumpSyms.Output.C28_no_cfi",
    "DumpSyms.Output.C28_complete",
    "DumpSyms.Output.C28_empty_store_witness"
   ],
   "note": "the second half assumes that directories and files can be created and that destinations have room; an empty store directory asks for nothing and reports success (witness)"
  },
  {
   "property": "C29",
   "status": "proved",
   "theorems": [
    "DumpSyms.Output.C29_same_bytes",
    "DumpSyms.Output.C29_others_unchanged"
   ],
   "note": "created directories are recorded apart from files"
  },
  {
   "property": "C30",
   "status": "partial",
   "theorems": [
    "DumpSyms.Output.C30_success_partial",
    "DumpSyms.Output.C30_reported",
    "DumpSyms.Output.C30_empty_file_witness"
   ],
   "note": "false as stated: the last buffer is written on drop and its failure is ignored (witness: full disk, success, empty file)"
  },
  {
   "property": "C31",
   "status": "proved",
   "theorems": [
    "DumpSyms.C31_store_layout"
   ],
   "note": ""
  },
  {
   "property": "C32",
   "status": "partial",
   "theorems": [
    "DumpSyms.C32_store_contained_iff",
    "DumpSyms.C32_store_contained_partial",
    "DumpSyms.C32_store_escape_witness"
   ],
   "note": "False as stated: a module named '..' escapes the store. Proved: exact condition for containment."
  },
  {
   "property": "C33",
   "status": "proved",
   "theorems": [
    "DumpSyms.Mapping.C33_cut",
    "DumpSyms.Mapping.C33_parse",
    "DumpSyms.Mapping.C33_rejects",
    "DumpSyms.Mapping.C33_bad_regex"
   ],
   "note": "byte-level scanner; a destination has exactly one cut into literals and actions; the regular expression engine is a parameter; numbers may carry a leading + as Rust's parser allows"
  },
  {
   "property": "C34",
   "status": "proved",
   "theorems": [
    "DumpSyms.Mapping.C34_expand",
    "DumpSyms.Mapping.C34_missing_group",
    "DumpSyms.Mapping.C34_unreadable",
    "DumpSyms.Mapping.C34_no_match"
   ],
   "note": "SHA-512, reading and matching are parameters; a digest of a file that cannot be read is an error"
  },
  {
   "property": "C35",
   "status": "proved",
   "theorems": [
    "DumpSyms.Mapping.C35_parse_no_panic",
    "DumpSyms.Mapping.C35_apply_no_panic"
   ],
   "note": "from_utf8_unchecked on invalid bytes is a panic in the model; the remaining panic is utils::read on an unreadable file"
  },
  {
   "property": "C36",
   "status": "proved",
   "theorems": [
    "DumpSyms.Mapping.C36_variables",
    "DumpSyms.Mapping.C36_order",
    "DumpSyms.Mapping.C36_first"
   ],
   "note": "hash map iteration order is arbitrary"
  },
  {
   "property": "C37",
   "status": "proved",
   "theorems": [
    "DumpSyms.Mapping.C37_answers",
    "DumpSyms.Mapping.C37_cache_transparent",
    "DumpSyms.Mapping.C37_sequential"
   ],
   "note": "lookups and insertions are atomic steps; any interleaving"
  },
  {
   "property": "C38",
   "status": "partial",
   "theorems": [
    "DumpSyms.Mapping.C38_lengths",
    "DumpSyms.Mapping.C38_no_panic_partial",
    "DumpSyms.Mapping.C38_panics_iff",
    "DumpSyms.Mapping.C38_empty_list_witness"
   ],
   "note": "false as stated: an absent list together with a present empty one passes the length check and is unwrapped (witness). C38_panics_iff is the exact condition."
  },
  {
   "property": "C39",
   "status": "proved",
   "theorems": [
    "DumpSyms.C39_normalize_path",
    "DumpSyms.C39_relative_parent_dropped"
   ],
   "note": ""
  },
  {
   "property": "C40",
   "status": "proved",
   "theorems": [
    "DumpSyms.C40_join_paths",
    "DumpSyms.C40_is_absolute",
    "DumpSyms.C40_join_absolute",
    "DumpSyms.C40_empty_directory_becomes_root"
   ],
   "note": ""
  },
  {
   "property": "C41",
   "status": "proved",
   "theorems": [
    "DumpSyms.C41_decorated",
    "DumpSyms.C41_forms",
    "DumpSyms.C41_stdcall_trailing_at"
   ],
   "note": "Both directions against Spec/Decorated."
  },
  {
   "property": "C42",
   "status": "partial",
   "theorems": [
    "DumpSyms.C42_panics_iff",
    "DumpSyms.C42_multibyte_panic_witness",
    "DumpSyms.C42_parse_returns_partial"
   ],
   "note": "False as stated: names starting with a non-ASCII character crash. Proved: the exact condition."
  },
  {
   "property": "C43",
   "status": "proved",
   "theorems": [
    "DumpSyms.WinUtils.C43_pe_of_pdb"
   ],
   "note": "Both directions against Spec/WinFiles; PE parsing is a parameter. A candidate that is a file but cannot be read makes the run panic if it comes before the first match."
  },
  {
   "property": "C44",
   "status": "proved",
   "theorems": [
    "DumpSyms.Cache.C44_parse",
    "DumpSyms.Cache.C44_none",
    "DumpSyms.Cache.C44_configured",
    "DumpSyms.Cache.C44_blanks"
   ],
   "note": "the grammar is stated separately in Spec/Cache.lean"
  },
  {
   "property": "C45",
   "status": "proved",
   "theorems": [
    "DumpSyms.Cache.C45_layout",
    "DumpSyms.Cache.C45_cached",
    "DumpSyms.Cache.C45_network_last",
    "DumpSyms.Cache.C45_nothing"
   ],
   "note": "the network is an arbitrary function; the name and the id are names of files"
  },
  {
   "property": "C46",
   "status": "proved",
   "theorems": [
    "DumpSyms.Cache.C46_served_back",
    "DumpSyms.Cache.C46_refused",
    "DumpSyms.Cache.C46_keeps_files",
    "DumpSyms.Cache.C46_full_disk",
    "DumpSyms.Cache.C46_flush_witness",
    "DumpSyms.Cache.C46_status_witness",
    "DumpSyms.Cache.C46_poison_witness"
   ],
   "note": "served back assumes the cache's disk had room: without it the failure is ignored and an empty file stays (witness); error pages and unusable cabinets are cached too (witnesses)"
  },
  {
   "property": "C47",
   "status": "partial",
   "theorems": [
    "DumpSyms.Cache.C47_truncated_witness",
    "DumpSyms.Cache.C47_stopped_partial"
   ],
   "note": "false as stated: the entry is written in place, a stopped run leaves a truncated file that later searches return (witness)"
  },
  {
   "property": "C48",
   "status": "proved",
   "theorems": [
    "DumpSyms.Threads.C48_all_merged_first"
   ],
   "note": "Transition system of the main thread and n workers, every access to shared state a step; holds in every reachable state of every schedule, with any outcomes of parsing, merging and writing."
  },
  {
   "property": "C49",
   "status": "proved",
   "theorems": [
    "DumpSyms.Threads.C49_once"
   ],
   "note": "Every reachable state; exactly the inputs with that debug id."
  },
  {
   "property": "C50",
   "status": "proved",
   "theorems": [
    "DumpSyms.Threads.C50_complete"
   ],
   "note": "For any number of inputs other than one (the program uses the single-file path for one)."
  },
  {
   "property": "C51",
   "status": "partial",
   "theorems": [
    "DumpSyms.Threads.C51_finite",
    "DumpSyms.Threads.C51_terminates_partial",
    "DumpSyms.Threads.Env.smooth_of_dumped",
    "DumpSyms.Threads.C51_race_witness",
    "DumpSyms.Threads.C51_parse_error_witness",
    "DumpSyms.Threads.C51_store_error_witness",
    "DumpSyms.Threads.C51_one_worker_witness",
    "DumpSyms.Threads.C51_no_worker_witness",
    "DumpSyms.Threads.C51_race",
    "DumpSyms.Threads.C51_no_worker",
    "DumpSyms.Threads.C51_one_worker",
    "DumpSyms.Threads.C51_hangs_iff",
    "DumpSyms.Threads.C51_returns_iff",
    "DumpSyms.Threads.C51_once_started",
    "DumpSyms.Threads.C51_can_return",
    "DumpSyms.Threads.C51_can_return_iff",
    "DumpSyms.Run.C51_workers"
   ],
   "note": "The claim is false: five witnesses of runs that hang. Proved: every run has a bounded number of steps, and when nothing fails and there is a worker, a run that stops has returned except for two stated causes (lost counter race with two or more workers; one worker with two debug ids). Exactly: when nothing fails, a run over two or more inputs can hang unless there is one worker and one debug id (C51_hangs_iff, C51_returns_iff), and can return exactly if there are two workers, or one worker and one debug id (C51_can_return_iff). With two workers, a run that has begun to hand out the modules does return (C51_once_started)."
  },
  {
   "property": "C52",
   "status": "partial",
   "theorems": [
    "DumpSyms.Threads.C52_panic_partial",
    "DumpSyms.Threads.C52_nothing_written_partial",
    "DumpSyms.Threads.C52_parse_error_witness",
    "DumpSyms.Threads.C52_store_error_witness"
   ],
   "note": "The claim is false: witnesses of runs that return Ok after an input failed to parse and after a module failed to be written. Proved: a panicking worker is reported, and an input that does not parse means nothing is written."
  },
  {
   "property": "C53",
   "status": "proved",
   "theorems": [
    "DumpSyms.Threads.C53_no_mismatch"
   ],
   "note": "Invariant of the table of results over all schedules."
  },
  {
   "property": "C54",
   "status": "proved",
   "theorems": [
    "DumpSyms.C54_cleaned",
    "DumpSyms.C54_strip_suffixes",
    "DumpSyms.C54_anonymous_namespace",
    "DumpSyms.C54_fix_symbol_name"
   ],
   "note": ""
  },
  {
   "property": "C55",
   "status": "partial",
   "theorems": [
    "DumpSyms.Main.C55_rejected",
    "DumpSyms.Main.C55_printed",
    "DumpSyms.Main.C55_one_line_partial",
    "DumpSyms.Main.C55_newline_witness"
   ],
   "note": "The last part is false: an accepted value may contain a newline and so add any record. Proved for values without newline."
  },
  {
   "property": "C56",
   "status": "proved",
   "theorems": [
    "DumpSyms.Dumper.C56_single",
    "DumpSyms.Dumper.C56_several",
    "DumpSyms.Dumper.C56_none"
   ],
   "note": "A single object that cannot be read is a panic (example in the file)."
  },
  {
   "property": "C57",
   "status": "partial",
   "theorems": [
    "DumpSyms.WinUtils.C57_places_partial",
    "DumpSyms.WinUtils.C57_cwd_witness"
   ],
   "note": "false as stated: the last place looked at is the parent of the current directory (witness)"
  },
  {
   "property": "C58",
   "status": "partial",
   "theorems": [
    "DumpSyms.WinUtils.C58_source_partial",
    "DumpSyms.WinUtils.C58_unchecked_witness"
   ],
   "note": "false as stated: the debug id of a PDB found on disk is not compared (witness)"
  },
  {
   "property": "C59",
   "status": "partial",
   "theorems": [
    "DumpSyms.Cache.C59_no_panic_partial",
    "DumpSyms.Cache.C59_panics_iff",
    "DumpSyms.Cache.C59_multibyte_witness"
   ],
   "note": "false as stated: a name ending with a multi-byte character panics (witness). C59_panics_iff is the exact condition for a panic."
  },
  {
   "property": "C60",
   "status": "partial",
   "theorems": [
    "DumpSyms.Dumper.C60_fallback_partial",
    "DumpSyms.WinUtils.C60_panics_iff",
    "DumpSyms.Dumper.C60_panic_witness"
   ],
   "note": "The claim is false: a PDB beside the PE that cannot be opened is a panic. Proved: when the search does not panic, the PE alone is dumped, and exactly when it panics (C60_panics_iff)."
  },
  {
   "property": "C61",
   "status": "proved",
   "theorems": [
    "DumpSyms.Dumper.C61_debug_id_first",
    "DumpSyms.Dumper.C61_by_id",
    "DumpSyms.Dumper.C61_by_path"
   ],
   "note": "The search itself is C44 and C45."
  },
  {
   "property": "C62",
   "status": "partial",
   "theorems": [
    "DumpSyms.Dumper.C62_nothing_written",
    "DumpSyms.Dumper.C62_bad_options",
    "DumpSyms.Dumper.C62_success_partial",
    "DumpSyms.Dumper.C62_complete"
   ],
   "note": "The second half is false for the last buffer (C30)."
  },
  {
   "property": "C63",
   "status": "partial",
   "theorems": [
    "DumpSyms.Dumper.C63_no_slash",
    "DumpSyms.Dumper.C63_pe_name",
    "DumpSyms.Dumper.C63_store_partial",
    "DumpSyms.Dumper.C63_escape_witness"
   ],
   "note": "The last part is false: a PE may record a PDB path ending in '..' (witness). Proved for every other name."
  },
  {
   "property": "C64",
   "status": "proved",
   "theorems": [
    "DumpSyms.Main.C64_jobs",
    "DumpSyms.Main.C64_destinations",
    "DumpSyms.Run.C64_config"
   ],
   "note": ""
  },
  {
   "property": "C65",
   "status": "partial",
   "theorems": [
    "DumpSyms.Dumper.C65_same_module_partial",
    "DumpSyms.Dumper.C65_ignored",
    "DumpSyms.Dumper.C65_ignored_witness"
   ],
   "note": "The claim is false: --symbol-server and the ids are ignored with several files (witness). Proved when these are absent."
  },
  {
   "property": "C66",
   "status": "partial",
   "theorems": [
    "DumpSyms.C66_same_module_partial",
    "DumpSyms.C66_merge_all_partial",
    "DumpSyms.C66_order_witness",
    "DumpSyms.C66_mapping"
   ],
   "note": "The claim is false for merged objects: FILE records are numbered in hash order (witness). Proved that the merged objects then describe the same module up to the numbering, and that path mappings do not depend on the order."
  },
  {
   "property": "C67",
   "status": "proved",
   "theorems": [
    "DumpSyms.C67_symbolicate",
    "DumpSyms.C67_symbolicate_flat"
   ],
   "note": "With inline information under the conditions of C12; on Windows for names with a parameter list, as a public symbol may rename other functions."
  },
  {
   "property": "C68",
   "status": "partial",
   "theorems": [
    "DumpSyms.Run.C68_stored_partial",
    "DumpSyms.Run.C68_one_id",
    "DumpSyms.Run.C68_overwritten_witness"
   ],
   "note": "The claim is false for an output file, which modules of different debug ids overwrite (witness). Proved for every destination when the inputs have one debug id (C68_one_id), and for a store, with or without an output file beside it, for runs that end and in which nothing goes wrong."
  },
  {
   "property": "C69",
   "status": "proved",
   "theorems": [
    "DumpSyms.Run.C69_same_as_alone",
    "DumpSyms.Run.C69_no_server"
   ],
   "note": "For a store, without --symbol-server and without ids (C65), when nothing goes wrong with writing. C69_same_as_alone compares with a run of its own from any state of the disk in which the same is read for the input; C69_no_server: any state, if no symbol server is configured."
  },
  {
   "property": "C70",
   "status": "proved",
   "theorems": [
    "DumpSyms.Run.C70_list_arch"
   ],
   "note": ""
  },
  {
   "property": "C71",
   "status": "partial",
   "theorems": [
    "DumpSyms.Run.C71_bad_info",
    "DumpSyms.Run.C71_bad_options",
    "DumpSyms.Run.C71_status_partial",
    "DumpSyms.Run.C71_several_status",
    "DumpSyms.Run.C71_several_witness"
   ],
   "note": "The claim is false for several files: status 0 although nothing could be written (witness). Proved for one file up to the ignored last flush (C30), for listing, and for options that are not usable."
  },
  {
   "property": "C72",
   "status": "partial",
   "theorems": [
    "DumpSyms.C72_source_path_partial",
    "DumpSyms.C72_absolute_name_witness",
    "DumpSyms.C72_no_directory_witness"
   ],
   "note": "Proved as the code joins them. False for an absolute name, which is put below its directory, and for a Windows file without directory, which is not put below the compilation directory (witnesses)."
  },
  {
   "property": "C73",
   "status": "proved",
   "theorems": [
    "DumpSyms.Dumper.C73_identification"
   ],
   "note": "For objects within the bounds of C15 whose names have no line breaks (C26)."
  },
  {
   "property": "C74",
   "status": "partial",
   "theorems": [
    "DumpSyms.Dumper.C74_options_partial",
    "DumpSyms.Dumper.C74_mingw_witness"
   ],
   "note": "False for a PE dumped without a PDB: its own debug information is dumped without inlines and mappings (witness)."
  },
  {
   "property": "C75",
   "status": "partial",
   "theorems": [
    "DumpSyms.C75_same_name_partial",
    "DumpSyms.C75_c_name_witness"
   ],
   "note": "False for C functions, whose compiler suffixes are removed only where the debug information names them (witness). Proved for mangled names whose language can be told."
  },
  {
   "property": "C76",
   "status": "partial",
   "theorems": [
    "DumpSyms.C76_embedded_partial",
    "DumpSyms.C76_past_end_witness"
   ],
   "note": "Proved when the section lies within the file; false otherwise: the run panics (witness). Unpacking and parsing are parameters."
  },
  {
   "property": "C77",
   "status": "proved",
   "theorems": [
    "DumpSyms.C77_read",
    "DumpSyms.C77_upper_case_witness"
   ],
   "note": "For disks whose directories list proper file names. The decoding of cabinets is a parameter. The witness records that the extension is compared with regard to case."
  },
  {
   "property": "C78",
   "status": "proved",
   "theorems": [
    "DumpSyms.C78_merged_lookup",
    "DumpSyms.C78_merged_symbolicate",
    "DumpSyms.C78_same_start_witness"
   ],
   "note": "For two dumps that can be read back and at most 2^32 files and fewer than 2^32 inline names in the two dumps. When both have a function at the same start, that of the dump with more symbols is kept unless made up from exception data; the witness shows the other's lines lost."
  },
  {
   "property": "C79",
   "status": "partial",
   "theorems": [
    "DumpSyms.Dumper.C79_rules",
    "DumpSyms.Dumper.C79_file_records_partial",
    "DumpSyms.Dumper.C79_frames",
    "DumpSyms.Dumper.C79_unreadable_witness"
   ],
   "note": "Proved when no mapping needs the digest of a file that exists and cannot be read. Such a file makes the run panic (witness); for a PE without PDB the mappings are not used (C74). The regular expression engine and SHA-512 are parameters."
  },
  {
   "property": "C80",
   "status": "partial",
   "theorems": [
    "DumpSyms.Cache.C80_search_partial",
    "DumpSyms.Cache.C80_order_witness"
   ],
   "note": "Proved in both directions (what a search gives, requests and leaves behind), with the order in which the servers answer in place of the order in which they are configured; that the first configured server is preferred is false (witness). Assumes room on the disk (C46)."
  },
  {
   "property": "C81",
   "status": "proved",
   "theorems": [
    "DumpSyms.Dumper.C81_run",
    "DumpSyms.Dumper.C81_sound",
    "DumpSyms.Dumper.C81_complete",
    "DumpSyms.Dumper.C81_unreadable_pe"
   ],
   "note": "Both directions against Spec/Inputs, including the state left behind. Assumes that directory entries, the debug id of a PE and the ids given are file names, that recorded PDB paths end in a name, and that what servers send fits on the disk. What is made of each source is C67 and C73. The last place looked at for a PDB is that of C57."
  },
  {
   "property": "C82",
   "status": "proved",
   "theorems": [
    "DumpSyms.C82_sources",
    "DumpSyms.C82_complete",
    "DumpSyms.C82_printed"
   ],
   "note": "Assumes ObjOk (readable debug information, names with an undecorated form on Windows); the printed form assumes names without newlines (C26)."
  },
  {
   "property": "C83",
   "status": "proved",
   "theorems": [
    "DumpSyms.C83_readable",
    "DumpSyms.C83_merged",
    "DumpSyms.C83_newline_witness"
   ],
   "note": "Assumes ObjOk. The witness shows a name with a line break read as a record of its own, so the condition is needed."
  },
  {
   "property": "C84",
   "status": "proved",
   "theorems": [
    "DumpSyms.C84_described",
    "DumpSyms.Run.C84_process"
   ],
   "note": "Composes C26, C62, C64, C67, C73, C79, C81, C82 and C83, and carries their assumptions: readable debug information (ObjOk), one-line texts, directory entries and ids that are file names, destinations that take the whole text. Frames are given under the conditions of C12 (inline information) and C11 (without)."
  },
  {
   "property": "C85",
   "status": "proved",
   "theorems": [
    "DumpSyms.Run.C85_several",
    "DumpSyms.Run.C85_merged",
    "DumpSyms.Run.C85_disjoint",
    "DumpSyms.Run.C85_one_id",
    "DumpSyms.Run.C85_pair",
    "DumpSyms.Run.C85_can_end_iff"
   ],
   "note": "For runs that end (C51 shows that some do not; C85_can_end_iff says when the program can end at all). Carries the assumptions of C84 for every input, and that files and inline origins together stay below 2^32 and the destinations take the texts. C85_merged also gives a same start if the other input has fewer records; three or more inputs with one debug id are left to C125."
  },
  {
   "property": "C86",
   "status": "partial",
   "theorems": [
    "DumpSyms.Run.C86_ends",
    "DumpSyms.Run.C86_no_name",
    "DumpSyms.Run.C86_sure",
    "DumpSyms.Run.C86_create",
    "DumpSyms.Run.C86_write",
    "DumpSyms.Run.C86_crash_partial",
    "DumpSyms.Run.C86_witness"
   ],
   "note": "False of the code: C86_witness gives eight crashes. Proved instead: the run ends in exactly one way with status 0, 1 or 101; the causes in SureCrash (and the path without a file name) always crash it; a single destination that cannot be created always crashes it (C86_create), and when the disk has room writing crashes exactly in the cases of WriteCrash (C86_write); and a crash always has a cause in SureCrash or LateCrash. Assumes that caches have room for what servers send (C46) and the other conditions of Sane."
  },
  {
   "property": "C87",
   "status": "proved",
   "theorems": [
    "DumpSyms.Cli.C87_options",
    "DumpSyms.Cli.C87_stops",
    "DumpSyms.Cli.C87_order",
    "DumpSyms.Cli.C87_writable",
    "DumpSyms.Cli.C87_process",
    "DumpSyms.Cli.C87_process_stops"
   ],
   "note": "For arguments that are valid UTF-8. clap itself is not in the repository; Model/Cli describes the part of version 4.5.40 that this table of arguments uses."
  },
  {
   "property": "C88",
   "status": "partial",
   "theorems": [
    "DumpSyms.Offline.C88_same_partial",
    "DumpSyms.Offline.C88_pe",
    "DumpSyms.Offline.C88_pe_alone",
    "DumpSyms.Offline.C88_program_pe_partial",
    "DumpSyms.Offline.C88_program_several_partial",
    "DumpSyms.Offline.C88_witness",
    "DumpSyms.Run.C88_program_partial"
   ],
   "note": "False for a PE whose PDB is beside it: the code that looks for it on the disk is part of the http feature (C88_witness). Proved for every other format and for a PE without a usable PDB, for runs on one file and for the whole program (C88_program_partial, C88_program_pe_partial; C88_program_several_partial for several files, among which a PE without a usable PDB needs no symbol server to be configured)."
  },
  {
   "property": "C89",
   "status": "partial",
   "theorems": [
    "DumpSyms.Run.C89_moments_partial",
    "DumpSyms.Run.C89_single",
    "DumpSyms.Run.C89_beginnings",
    "DumpSyms.Run.C89_beginnings_store",
    "DumpSyms.Run.C89_store",
    "DumpSyms.Run.C89_ends",
    "DumpSyms.Run.C89_stopped",
    "DumpSyms.Run.C89_mixed_witness"
   ],
   "note": "False for an output file or stream that modules of different debug ids are written to: two workers can have it open at the same time (C89_mixed_witness). Proved for one file, for every place of a store, and for every destination that modules of at most one debug id go to. C89_ends: every end of a dump is one of the moments."
  },
  {
   "property": "C90",
   "status": "partial",
   "theorems": [
    "DumpSyms.Run.C90_causes_partial",
    "DumpSyms.Run.C90_sure",
    "DumpSyms.Run.C90_witness",
    "DumpSyms.Threads.C90_threads",
    "DumpSyms.Threads.C90_no_return",
    "DumpSyms.Threads.C90_crash_or_hang"
   ],
   "note": "False: a missing input, an unreadable mapping file and an output that cannot be created crash the process (C90_witness). C90_causes_partial: every crash has one of six causes. C90_sure: with an input that cannot be read or looked into, and no input that only gives an error, every end of the process is a crash with nothing written. C90_crash_or_hang: the same inputs can crash or hang it, depending on the schedule."
  },
  {
   "property": "C91",
   "status": "proved",
   "theorems": [
    "DumpSyms.Run.C91_process",
    "DumpSyms.C91_texts",
    "DumpSyms.C91_texts_paths"
   ],
   "note": "About pairs of runs. C91_process: the modules two successful runs write; C91_texts and C91_texts_paths: what this means for the symbol files, read back. Two different paths can be mapped to one text; the FILE records are still as many."
  },
  {
   "property": "C92",
   "status": "proved",
   "theorems": [
    "DumpSyms.Offline.C92_defaults",
    "DumpSyms.Offline.C92_arch"
   ],
   "note": "Stated with the meaning of command lines of C87."
  },
  {
   "property": "C93",
   "status": "proved",
   "theorems": [
    "DumpSyms.Dumper.C93_again",
    "DumpSyms.Dumper.C93_offline",
    "DumpSyms.Dumper.C93_contents",
    "DumpSyms.Dumper.C93_full_disk_witness"
   ],
   "note": "one file; the destinations are not among the files read"
  },
  {
   "property": "C94",
   "status": "proved",
   "theorems": [
    "DumpSyms.Run.C94_same",
    "DumpSyms.Run.stored_exactly"
   ],
   "note": "About runs that end: with one worker a run over several modules hangs (C51). With an output file instead of a directory, or with equal debug ids, what is left depends on the schedule (C68, C66, C89)."
  },
  {
   "property": "C95",
   "status": "proved",
   "theorems": [
    "DumpSyms.Threads.C95_reported",
    "DumpSyms.Threads.C95_printed",
    "DumpSyms.Threads.C95_levels",
    "DumpSyms.Threads.C95_bound",
    "DumpSyms.Threads.C95_silent_witness",
    "DumpSyms.Threads.C95_one_line_witness"
   ],
   "note": "The texts of the lines are not modelled. Witnesses: with --verbose off a failed run is silent, and several failures may give one line."
  },
  {
   "property": "C96",
   "status": "proved",
   "theorems": [
    "DumpSyms.Threads.C96_times",
    "DumpSyms.C96_printed",
    "DumpSyms.Threads.C96_twice_witness"
   ],
   "note": "So the symbol file of a module given twice is not the one of the module given once (witness)."
  },
  {
   "property": "C97",
   "status": "partial",
   "theorems": [
    "DumpSyms.Run.C97_other_formats_partial",
    "DumpSyms.Run.C97_no_server_partial",
    "DumpSyms.Run.C97_finished_partial",
    "DumpSyms.Run.parse_meanwhile",
    "DumpSyms.Run.C97_lost_witness",
    "DumpSyms.Run.C97_crash_witness"
   ],
   "note": "False: a download is written to its final place in the cache, and another worker can read it there half written; its module then lacks its functions, or the run crashes (witnesses). Proved for inputs that are neither PE nor PDB files, without a symbol server, and for downloads that have ended."
  },
  {
   "property": "C98",
   "status": "proved",
   "theorems": [
    "DumpSyms.Run.C98_together",
    "DumpSyms.Run.C98_untouched",
    "DumpSyms.Run.C98_gap_witness",
    "DumpSyms.Run.C98_mixed_witness"
   ],
   "note": "Assumes that directories and files can be created and that there is room. Witnesses: before the processes have ended the file may begin with zeros, and two processes with different texts (other header lines) can leave a mixture of both."
  },
  {
   "property": "C99",
   "status": "proved",
   "theorems": [
    "DumpSyms.Run.C99_one_by_one",
    "DumpSyms.Run.C99_again",
    "DumpSyms.Run.single_exactly"
   ],
   "note": "About files with different debug ids that are stored into a directory, and runs over several files that end (C51). One file after the other: without --symbol-server, --debug-id and --code-id, since only the run on a single file searches with them (C65)."
  }
 ]
}