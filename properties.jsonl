{"id": "C01", "title": "Line records come out sorted and none is lost", "statement": "For one FUNC, whatever order the debug info lists its line entries in, the line records printed under it are in non-decreasing address order, and they are exactly the entries that were added (same address, line number and file id, same multiplicity; entries with equal addresses keep their relative order).", "quantifier": "every sequence of line insertions (any length, any addresses), followed by finalization", "why_tests_cant": "sortedness is tracked by an incremental flag and a last-seen address; tests only try a handful of insertion orders", "anchors": ["src/line.rs: Lines::add_line, Lines::ensure_order, Lines::finalize"]}
{"id": "C02", "title": "Line sizes tile the function", "statement": "After finalization every line record ends exactly where the next one starts, and the last record ends at the end of the function when it starts before it (otherwise its size is 0). Consequently every address from the first record up to the function's end is attributed to exactly the record with the greatest start not above it. Computing the sizes never panics or wraps.", "quantifier": "every sequence of line insertions, every function start and length (including start+length beyond 2^32)", "why_tests_cant": "overflow and empty/degenerate boundaries: the only unit test is one literal function", "anchors": ["src/line.rs: Lines::compute_len, Lines::finalize"]}
{"id": "C03", "title": "Merging the ranges of an inline site preserves coverage", "statement": "Finalization sorts the address ranges of every inline call site and joins ranges that touch. The set of addresses covered by the site is unchanged, the resulting ranges are sorted, no two consecutive ranges touch, and no call site ends up without a range.", "quantifier": "every multiset of ranges with start+length below 2^32, in any insertion order", "why_tests_cant": "range joining mutates while iterating; the claim is about all lists of ranges", "anchors": ["src/line.rs: Lines::ensure_order, Lines::add_inline"]}
{"id": "C04", "title": "Printing a function cannot panic and orders its records", "statement": "For any history of line and inline insertions, printing a FUNC's body succeeds, prints all INLINE records before all line records, prints each call site exactly once with all of its ranges, and prints INLINE records in ascending order of (start of the first range, nesting depth), and those that agree in both in ascending order of (function called, call line, call file).", "quantifier": "every history of insertions followed by finalization and by id remapping", "why_tests_cant": "the unwrap on the first range relies on an invariant over all histories", "anchors": ["src/line.rs: Display for Lines, write_inline_record, write_line_record, Lines::add_inline"]}
{"id": "C05", "title": "Inline origin ids are stable, dense and faithful", "statement": "Asking for the id of an inlined function's name twice returns the same id, different names get different ids, ids are 0,1,2,... in order of first use, and record INLINE_ORIGIN n carries the text computed from the name that was given id n.", "quantifier": "every sequence of names requested", "why_tests_cant": "an interning table must be right after every history", "anchors": ["src/inline_origins.rs: InlineOrigins::get_id, InlineOrigins::get_list"]}
{"id": "C06", "title": "Inline origin records are single, non-blank lines", "statement": "The name stored for an inlined function contains no ASCII control character (in particular no newline) whatever the demangler returned, and no INLINE_ORIGIN record is printed with a blank name.", "quantifier": "every function name and every demangler behaviour", "why_tests_cant": "demangler output is unbounded; the test uses one string", "anchors": ["src/inline_origins.rs: InlineOrigins::demangle_and_sanitize", "src/object_info.rs: Display for ObjectInfo"]}
{"id": "C07", "title": "File ids are stable and resolve to the file's mapped path", "statement": "During a dump, two references to the same source path always get the same FILE id, references to different paths get different ids, and FILE record n carries the mapped form of the path that was given id n (the path itself when there is no mapping or the mapping fails).", "quantifier": "every sequence of file references made by the collector, every path-mapping function", "why_tests_cant": "interning through three tables (pointer cache, path table, used-id table) must be right after every history", "anchors": ["src/source.rs: SourceFiles::get_id, SourceFiles::get_true_id, SourceFiles::get_mapping"]}
{"id": "C08", "title": "FILE ids are consecutive and every path in the table has a FILE record", "statement": "After collecting any list of functions, with or without inlines, the FILE ids in use are exactly 0..n-1 with n the number of FILE records, and the id the path table assigns to a path is the number of its FILE record.", "quantifier": "every list of functions (any nesting of inlinees), both inline modes", "why_tests_cant": "depends on every code path of the collector asking for the real id right after interning a path", "anchors": ["src/source.rs: SourceFiles::get_true_id", "src/collector.rs: collect_function_without_inlines, collect_function_with_inlines_recursive"]}
{"id": "C09", "title": "The pointer cache is transparent", "statement": "Looking a file up through the pointer-keyed cache gives the same id as looking it up by its text, as long as a (pointer,length) pair denotes the same text for the whole dump.", "quantifier": "every sequence of lookups and every memory layout", "why_tests_cant": "allocation addresses are not under a test's control; when names are not valid UTF-8 the pointer is that of a temporary and the premise fails", "anchors": ["src/source.rs: SourceFiles::get_id, SourceFiles::cast_ptr"]}
{"id": "C10", "title": "One record per address, first function wins", "statement": "After collecting functions, each address holds at most one FUNC; it carries the name, size and lines of the first function reported at that address, and it is flagged 'm' exactly when another function was reported at the same address. Functions reported at address 0 produce nothing.", "quantifier": "every list of functions", "why_tests_cant": "duplicates (ICF) can occur in any number and order", "anchors": ["src/collector.rs: Collector::collect_function, Collector::collect_functions"]}
{"id": "C11", "title": "Without inlines, each code address is attributed to its own line", "statement": "With inlines off, for a function whose line table is sorted by address, looking up in the recorded lines any address of the function from a non-zero line entry up to the next non-zero entry gives that entry's line number and file; runs of equal (line, file) are collapsed; and no recorded line has line number 0.", "quantifier": "every sorted line table, including repeated and zero line entries", "why_tests_cant": "collapsing depends on the previous emitted entry, over unbounded tables", "anchors": ["src/collector.rs: collect_function_without_inlines", "src/line.rs: Lines::finalize"]}
{"id": "C12", "title": "With inlines, each code address is attributed to its innermost source line", "statement": "With inlines on, for a well-formed function tree (line tables sorted and disjoint, each line entry of an inlinee within one line entry of its caller, inlinees disjoint, and no inlinee with two neighbouring line entries of the same line and file separated by a gap), looking up any address covered by the function in the recorded lines gives the line and file of the innermost inlinee covering that address (or of the function itself when no inlinee covers it). The last two shape conditions cannot be dropped: without either of them the attribution is wrong for some tree.", "quantifier": "every well-formed function tree of any depth and width, every address", "why_tests_cant": "the collector interleaves two sorted streams recursively; tests only cover fixtures produced by two compilers", "anchors": ["src/collector.rs: collect_function_with_inlines_recursive", "src/line.rs: Lines"]}
{"id": "C13", "title": "INLINE records give the call chain of each address", "statement": "For a well-formed function tree (line tables sorted and disjoint, each line entry of an inlinee within one line entry of its caller, inlinees disjoint), an address is covered by an INLINE record of nesting depth d, call line l, call file f and origin o exactly when the (d+1)-th inlinee in the chain covering the address is named o and was called from line l of file f in its caller.", "quantifier": "every well-formed function tree, every address, every depth", "why_tests_cant": "same unbounded recursive interleaving as above", "anchors": ["src/collector.rs: collect_function_with_inlines_recursive", "src/line.rs: Lines::add_inline, Lines::ensure_order"]}
{"id": "C14", "title": "Every inlined range is reported exactly once or not at all", "statement": "For any function tree, even a malformed one, the collector terminates and the INLINE ranges it records for the direct inlinees of a function are, as a multiset, the first k (in address order) of the address ranges of those inlinees' line entries; each has the inlinee's own origin id and the nesting depth of the call.", "quantifier": "every function tree, well-formed or not, any order chosen by the unstable sort for equal starts", "why_tests_cant": "malformed debug info cannot be enumerated", "anchors": ["src/collector.rs: collect_function_with_inlines_recursive"]}
{"id": "C15", "title": "Public symbols never hide or sit inside a function", "statement": "Adding public symbols never removes or resizes a FUNC and never adds a PUBLIC at an address strictly inside the extent of the closest preceding symbol; a second public at the same address only sets the 'm' flag; compiler-generated constants (??_C, __real@, __xmm@, __ymm@) are never added.", "quantifier": "every symbol map and every list of public symbols", "why_tests_cant": "depends on a range query against a map that grows during the loop", "anchors": ["src/collector.rs: Collector::collect_publics", "src/symbol.rs: is_inside_symbol, should_skip_symbol"]}
{"id": "C16", "title": "Placeholder functions only fill holes", "statement": "Placeholder FUNCs made from exception data never replace or change an existing symbol, are never placed inside the closest preceding symbol, and entries whose end precedes their start are ignored.", "quantifier": "every symbol map and every list of exception entries", "why_tests_cant": "unbounded lists; map grows during the loop", "anchors": ["src/collector.rs: Collector::collect_placeholder_functions"]}
{"id": "C17", "title": "Section and end-of-module symbols only fill holes", "statement": "Adding ELF executable-section symbols or the end-of-module dummy symbol leaves every existing record untouched; the dummy is placed at the end of the last symbol (one past its start when its length is 0).", "quantifier": "every symbol map, every list of sections", "why_tests_cant": "must hold for all maps including wrap-around at 2^32", "anchors": ["src/symbol.rs: add_executable_section_symbols, append_dummy_symbol_pe_pdb"]}
{"id": "C18", "title": "Every id in the output is defined in the output", "statement": "In a dumped object, every file id used by a line or INLINE record is the number of a FILE record, and every origin id used by an INLINE record is the number of an INLINE_ORIGIN record. This survives merging any number of objects in any order.", "quantifier": "every object file contents, both inline modes, every tree of merges", "why_tests_cant": "a dangling id anywhere breaks consumers; ids come from tables shared by all functions and renumbered by merges", "anchors": ["src/object_info.rs: ObjectInfo::from_object, ObjectInfo::merge", "src/symbol.rs: remap_lines, remap_inlines", "src/source.rs", "src/inline_origins.rs"]}
{"id": "C19", "title": "Merging is refused unless debug ids agree", "statement": "Merging two objects fails exactly when their debug ids differ, and a successful merge has that debug id.", "quantifier": "every pair of objects", "why_tests_cant": "needs all pairs", "anchors": ["src/object_info.rs: ObjectInfo::merge"]}
{"id": "C20", "title": "Merging never loses a function", "statement": "If either input has a FUNC at an address then the merged object has a FUNC at that address, taken from the input with more symbols when both have one (then flagged 'm'); a PUBLIC of the larger input survives unless replaced by a FUNC or, when synthetic, by a real PUBLIC of the other input at the same address; every symbol in the result comes from one of the inputs.", "quantifier": "every pair of symbol maps", "why_tests_cant": "case analysis over all overlaps of two unbounded maps", "anchors": ["src/object_info.rs: ObjectInfo::merge"]}
{"id": "C21", "title": "Merging does not depend on argument order", "statement": "Merging a stripped binary and its debug file gives the same symbol file whichever is given first.", "quantifier": "every pair of objects", "why_tests_cant": "needs all pairs; holds only when the symbol counts differ", "anchors": ["src/object_info.rs: ObjectInfo::merge"]}
{"id": "C22", "title": "Merging keeps each line's source file", "statement": "After merging, every line record and every INLINE call site of every function still resolves to the same source path it resolved to before the merge, for every iteration order of the path hash table.", "quantifier": "every pair of objects produced by a dump under one path mapping, every hash iteration order", "why_tests_cant": "renumbering depends on hash iteration order, which a test cannot choose", "anchors": ["src/source.rs: SourceMap::merge", "src/symbol.rs: remap_lines, remap_inlines", "src/object_info.rs: ObjectInfo::merge"]}
{"id": "C23", "title": "Merging keeps each inline call's function name and ranges", "statement": "After merging, every INLINE record of every function still resolves to the same inlined-function name and has the same address ranges; no INLINE record is lost.", "quantifier": "every pair of objects with valid ids", "why_tests_cant": "renumbering of unbounded tables; a non-injective renumbering would silently drop records", "anchors": ["src/inline_origins.rs: merge_inline_origins", "src/symbol.rs: remap_inlines"]}
{"id": "C24", "title": "Merging keeps all unwind information", "statement": "The merged object's unwind text is the unwind text of the inputs: if one is empty it is the other, else the larger input's text, terminated by a newline, followed by the other's; no record is lost or glued to another.", "quantifier": "every pair of unwind texts", "why_tests_cant": "separator handling for all texts", "anchors": ["src/object_info.rs: ObjectInfo::merge"]}
{"id": "C25", "title": "Merged header fields", "statement": "When exactly one of two merged inputs is stripped the merged module name is the stripped one's; the merged object has a code id whenever either input has one.", "quantifier": "every pair of objects", "why_tests_cant": "all combinations of kinds and sizes", "anchors": ["src/object_info.rs: ObjectInfo::merge"]}
{"id": "C26", "title": "The symbol file can be read back", "statement": "Reading the printed symbol file back with a Breakpad reader recovers exactly the module header, code id, FILE table, INLINE_ORIGIN table, every symbol with its flag, address, size, parameter size and name, and every INLINE and line record, provided names contain no line break.", "quantifier": "every dumped object whose names contain no newline", "why_tests_cant": "a text format round trip over unbounded contents", "anchors": ["src/object_info.rs: Display for ObjectInfo", "src/symbol.rs: Display for Symbol", "src/line.rs: Display for Lines"]}
{"id": "C27", "title": "Symbols are printed in ascending address order, one per address", "statement": "FUNC and PUBLIC records of a dumped or merged object appear in strictly increasing address order.", "quantifier": "every object file contents, every merge tree", "why_tests_cant": "needs that the printed address equals the table key after every operation", "anchors": ["src/object_info.rs: Display for ObjectInfo", "src/symbol.rs: Symbols"]}
{"id": "C28", "title": "check-cfi gates all output", "statement": "With check-cfi on and no unwind data, nothing is created or written anywhere and an error is reported; otherwise every requested destination receives the complete text.", "quantifier": "every object, every output configuration, every initial file system", "why_tests_cant": "needs all configurations and file-system states", "anchors": ["src/dumper.rs: store, get_writer_for_sym"]}
{"id": "C29", "title": "File and store outputs are identical", "statement": "When both an output file and a store directory are requested, both receive the same bytes, and no other file is changed.", "quantifier": "every object and configuration", "why_tests_cant": "all configurations", "anchors": ["src/dumper.rs: store"]}
{"id": "C30", "title": "A reported success means the whole file is on disk", "statement": "If dumping reports success then the destination holds the complete symbol file.", "quantifier": "every object text and every write failure point of the destination", "why_tests_cant": "write failures at each byte cannot be enumerated by tests; the buffered tail is flushed on drop and its error ignored", "anchors": ["src/dumper.rs: get_writer_for_sym, store", "src/object_info.rs: ObjectInfo::dump"]}
{"id": "C31", "title": "Symbol store layout", "statement": "The stored file is DIR/NAME/ID/BASE.sym where NAME is the module name with .pd_/.ex_/.dl_ expanded, and BASE is the module name without a .pdb extension.", "quantifier": "every module name and id", "why_tests_cant": "string manipulation over all names", "anchors": ["src/utils.rs: get_path_for_sym, get_base", "src/dumper.rs: store"]}
{"id": "C32", "title": "The store never writes outside its directory", "statement": "The path written for a module lies below the store directory.", "quantifier": "every module name found in a binary", "why_tests_cant": "module names come from untrusted binaries", "anchors": ["src/utils.rs: get_path_for_sym", "src/dumper.rs: store", "src/object_info.rs: file_name_only"]}
{"id": "C33", "title": "Mapping templates lose no text", "statement": "Parsing a mapping destination splits it into literal pieces and {actions} whose concatenation, in order, is exactly the destination string; stray braces are kept as literal text; parsing fails exactly when some {...} is neither DIGEST, digest, a variable nor a number.", "quantifier": "every destination string and variable table", "why_tests_cant": "a hand-written scanner with three mutable indices, over all strings", "anchors": ["src/mapping.rs: PathMappingGenerator::new"]}
{"id": "C34", "title": "Mapping expansion", "statement": "Applying a mapping to a matching path yields the destination with each {n} replaced by capture group n, each {var} by the variable's value and each {digest}/{DIGEST} by the file's SHA-512 in lower/upper case; it yields nothing if the path does not match, is not in the mapping's file list, or a referenced group did not participate.", "quantifier": "every template, regex outcome, variable table and digest function", "why_tests_cant": "all templates and captures", "anchors": ["src/mapping.rs: PathMappingGenerator::apply"]}
{"id": "C35", "title": "Mapping output is valid UTF-8", "statement": "The unchecked conversion of the expanded bytes to a string is always sound, and the checked one never panics: the pieces cut out of the template are always valid UTF-8.", "quantifier": "every UTF-8 template (including multi-byte characters), group, variable and digest text", "why_tests_cant": "undefined behaviour on inputs tests do not contain", "anchors": ["src/mapping.rs: PathMappingGenerator::new, PathMappingGenerator::apply"]}
{"id": "C36", "title": "Mapping precedence", "statement": "A path is mapped by the first mapping that yields a result, in this order: mappings of the mapping file that list files, mappings of the mapping file that list none, then command-line pairs, each in the order given. Command-line variables override the mapping file's.", "quantifier": "every mapping configuration and path", "why_tests_cant": "all combinations of configuration sources", "anchors": ["src/mapping.rs: PathMappings::new, get_mappings_from_file, get_mappings, get_variables, map"]}
{"id": "C37", "title": "The mapping cache is transparent", "statement": "Mapping a path gives the same answer whatever paths were mapped before, by any thread, as long as the files' digests do not change.", "quantifier": "every history of map calls (any interleaving of atomic lookups and inserts)", "why_tests_cant": "depends on all histories", "anchors": ["src/mapping.rs: PathMappings::map"]}
{"id": "C38", "title": "Mapping options are validated, not crashed on", "statement": "Building the mappings from a configuration either succeeds or reports an error; it does not panic. Source and destination lists of different lengths are rejected.", "quantifier": "every configuration of variables, sources and destinations", "why_tests_cant": "all combinations of present/absent/empty lists", "anchors": ["src/mapping.rs: PathMappings::get_mappings, get_variables"]}
{"id": "C39", "title": "Path normalization", "statement": "Normalizing a path yields a path without '.' or '..' components, keeps absolute paths absolute, is idempotent, and for an absolute path denotes the result of resolving '.' and '..' lexically from the root.", "quantifier": "every path string", "why_tests_cant": "all paths", "anchors": ["src/utils.rs: normalize_path"]}
{"id": "C40", "title": "Joining paths inserts exactly one separator", "statement": "Joining a directory and a name yields the directory without trailing separators, one separator, and the name without leading separators; the separator is '/' except for Windows paths whose left side is not an absolute Linux path; joining to an absolute directory gives an absolute path.", "quantifier": "every pair of strings, every platform", "why_tests_cant": "all strings", "anchors": ["src/platform.rs: join_paths, is_absolute_path", "src/source.rs: get_path"]}
{"id": "C41", "title": "Windows C decorations are undone", "statement": "For a C function name and its stdcall, fastcall, vectorcall or cdecl decorated form, parsing the decorated form gives back the name and the parameter size; names containing ':' or '(' are left alone.", "quantifier": "every name and every 32-bit parameter size", "why_tests_cant": "all names and sizes; edge cases around '@' and overflow", "anchors": ["src/symbol.rs: ParsedWinFuncName::parse_unknown, parse_c_decorated"]}
{"id": "C42", "title": "Parsing a decorated name never crashes", "statement": "Parsing any symbol name as a decorated name returns a result.", "quantifier": "every symbol name (UTF-8)", "why_tests_cant": "symbol names come from untrusted files and need not start with an ASCII character", "anchors": ["src/symbol.rs: ParsedWinFuncName::parse_c_decorated"]}
{"id": "C43", "title": "Finding the PE of a PDB", "statement": "The PE chosen for a PDB has the PDB's debug id, is in the PDB's directory with the PDB's base name, is the first match in the order dll, dl_, exe, ex_, and is reported under an uncompressed extension; none is chosen only if none of the four matches.", "quantifier": "every directory content", "why_tests_cant": "all file systems", "anchors": ["src/windows/utils.rs: find_pe_for_pdb, fix_extension"]}
{"id": "C44", "title": "Symbol server configuration", "statement": "Parsing a symbol path keeps exactly the entries of the form srv, srv*S and srv*C*S (any case of srv, blanks around fields ignored, ';' or newline separated), in order, with the documented cache and server; other entries are ignored.", "quantifier": "every configuration string", "why_tests_cant": "all strings", "anchors": ["src/cache.rs: parse_srv, parse_sympath, read_config_from_str"]}
{"id": "C45", "title": "The cache is consulted first, in order", "statement": "Searching a file returns the first cached copy in the order of the configured servers without any network request; the network is used only when no cache has the file; nothing is returned when no server is configured or the name is empty.", "quantifier": "every server list, cache content and server behaviour", "why_tests_cant": "all server and cache states", "anchors": ["src/cache.rs: search_file, search_in_cache, get_jobs"]}
{"id": "C46", "title": "Downloads are cached and served back", "statement": "A file successfully downloaded from a server with a cache, whose disk has room for it, is afterwards found in that cache with the same contents, without a network request; empty answers and 'Symbol Not Found' pages are never cached nor returned.", "quantifier": "every server behaviour and every later history of searches of the same file", "why_tests_cant": "histories of cache states", "anchors": ["src/cache.rs: copy_in_cache, fetch_data, search_file"]}
{"id": "C47", "title": "A crash while caching does not corrupt later runs", "statement": "If the process dies while storing a download in the cache, later searches do not return a truncated file.", "quantifier": "every crash point during the write of the cache entry", "why_tests_cant": "crash points cannot be enumerated by tests", "anchors": ["src/cache.rs: copy_in_cache, search_in_cache, search_file"]}
{"id": "C48", "title": "No output before all inputs are merged", "statement": "When dumping several files, no symbol file is written and no worker is told to stop before every input file has been parsed and merged.", "quantifier": "every number of files and workers, every schedule, every file outcome", "why_tests_cant": "thread schedules", "anchors": ["src/dumper.rs: consumer, send_store_jobs, several_files"]}
{"id": "C49", "title": "Each module is written at most once, with all of its inputs", "statement": "In any run over several files each debug id is handed to the writer at most once, and what is written for it is a merge of exactly the inputs having that debug id, each used once.", "quantifier": "every schedule, every number of files and workers", "why_tests_cant": "thread schedules", "anchors": ["src/dumper.rs: consumer, send_store_jobs"]}
{"id": "C50", "title": "A completed run has written every module", "statement": "If a multi-file run whose inputs all parse and whose writes all succeed terminates, then every debug id occurring among the inputs has been written exactly once.", "quantifier": "every schedule", "why_tests_cant": "thread schedules", "anchors": ["src/dumper.rs: consumer, several_files"]}
{"id": "C51", "title": "Multi-file dumps terminate", "statement": "Dumping several files always terminates.", "quantifier": "every schedule, every number of files and workers, every file outcome", "why_tests_cant": "thread schedules; the check of the remaining-files counter and its decrement are separate steps, error exits do not signal the other workers, and the last worker sends on a bounded queue it is itself supposed to drain", "anchors": ["src/dumper.rs: consumer, send_store_jobs, poison_queue, several_files"]}
{"id": "C52", "title": "A multi-file run reports failures", "statement": "If some input of a multi-file run cannot be processed or written, the run reports an error.", "quantifier": "every schedule and file outcome", "why_tests_cant": "thread schedules", "anchors": ["src/dumper.rs: several_files, consumer"]}
{"id": "C53", "title": "Merging inside a run never fails on debug ids", "statement": "The debug-id mismatch error of a merge cannot occur in a multi-file run.", "quantifier": "every schedule", "why_tests_cant": "needs an invariant of the shared results table over all histories", "anchors": ["src/dumper.rs: consumer", "src/object_info.rs: ObjectInfo::merge"]}
{"id": "C54", "title": "Symbol name clean-up", "statement": "Compiler suffixes (.cold, .llvm.N, .constprop.N, [clone ...], ...) are removed from the end of a name and nothing else is removed: the result is a prefix of the name (up to the spelling of anonymous namespaces), the removed part consists only of such suffixes, no further suffix can be removed, and cleaning twice equals cleaning once.", "quantifier": "every name", "why_tests_cant": "regular-expression behaviour on all strings", "anchors": ["src/common.rs: fix_symbol_name, normalize_anonymous_namespace"]}
{"id": "C55", "title": "Extra INFO lines", "statement": "Every --extra-info value that does not start with upper-case letters/underscores followed by a space is rejected; accepted values are printed as INFO lines in order, followed by the generator line unless disabled; a single accepted value adds a single line.", "quantifier": "every list of extra-info values", "why_tests_cant": "all strings, including embedded newlines", "anchors": ["src/main.rs: get_extra_info", "src/object_info.rs: Display for ObjectInfo"]}
{"id": "C56", "title": "Fat binary slice selection", "statement": "For a Mach-O archive with a single object that object is dumped whatever architecture was requested; with several, the first readable object of the requested architecture is dumped and an error is reported when there is none.", "quantifier": "every archive", "why_tests_cant": "all archives", "anchors": ["src/mac.rs: ObjectInfo::from_macho"]}
{"id": "C57", "title": "Where the PDB of a PE is found", "statement": "The PDB of a PE is the first that exists among the path recorded in the PE, the file of that name beside the PE, its compressed form there, and the file of that name in the current working directory.", "quantifier": "every disk, every PE path, every recorded PDB path", "why_tests_cant": "all disk contents and current directories", "anchors": ["src/windows/utils.rs: try_to_find_pdb, os_specific_try_to_find_pdb"]}
{"id": "C58", "title": "The PDB used for a PE belongs to it", "statement": "A PDB paired with a PE has the PE's debug id.", "quantifier": "every disk and PE", "why_tests_cant": "all disk contents; tests place matching files", "anchors": ["src/windows/utils.rs: get_pe_pdb_buf", "src/dumper.rs: get_pe_pdb_object_info"]}
{"id": "C59", "title": "Looking a file up on symbol servers does not panic", "statement": "With readable caches, valid server URLs, usable answers and a working disk, searching any file name on symbol servers does not panic.", "quantifier": "every file name, server list and network behaviour", "why_tests_cant": "all file names; the name is cut one byte before its end", "anchors": ["src/cache.rs: get_jobs, search_file"]}
{"id": "C60", "title": "A PE is dumped even when its PDB is of no use", "statement": "A PE that can be parsed is dumped from its own data whenever its PDB cannot be found, read or parsed; the search for a PDB never makes the run fail.", "quantifier": "every disk, PE and server list", "why_tests_cant": "all disk contents; tests have a readable PDB or none", "anchors": ["src/dumper.rs: get_object_info, get_pe_pdb_object_info", "src/windows/utils.rs: get_pe_pdb_buf"]}
{"id": "C61", "title": "Files asked for by id", "statement": "With --debug-id (or else --code-id) the file comes from the symbol servers under that id and the given name, the debug id taking precedence, and it is an error when no server has it; without an id the file at the path is read and no request is made.", "quantifier": "every configuration, disk and network", "why_tests_cant": "needs all network behaviours", "anchors": ["src/dumper.rs: get_from_id"]}
{"id": "C62", "title": "One file, end to end", "statement": "If the input cannot be turned into a module, the run reports a failure and writes nothing; if the run succeeds, every destination holds the complete text of the module.", "quantifier": "every environment, configuration and file", "why_tests_cant": "all failures at every step", "anchors": ["src/dumper.rs: single_file, get_object_info", "src/object_info.rs: store"]}
{"id": "C63", "title": "Module names", "statement": "The name of a module has no '/', a module made from a PE alone is named after the last component of the PDB path recorded in the PE, and the symbol file lies below the store directory.", "quantifier": "every input of every format", "why_tests_cant": "names come from the input; all strings", "anchors": ["src/object_info.rs: from_object", "src/windows/pdb.rs: ObjectInfo::from_pe, win_path_file_name", "src/utils.rs: get_path_for_sym"]}
{"id": "C64", "title": "Command line defaults", "statement": "The number of jobs is the number of CPUs when the option is absent or not a number and the given number otherwise; the destinations written are exactly those named by --output and --store.", "quantifier": "every command line", "why_tests_cant": "all argument strings", "anchors": ["src/main.rs: main"]}
{"id": "C65", "title": "Options apply to any number of files", "statement": "A file is turned into the same module with the same options whether it is given alone or with others.", "quantifier": "every configuration and file", "why_tests_cant": "tests exercise single_file only", "anchors": ["src/dumper.rs: several_files, single_file"]}
{"id": "C66", "title": "Reproducible output", "statement": "Two runs over the same input make the same symbol file: nothing depends on the order in which hash tables are iterated.", "quantifier": "every pair of hash iteration orders, every pair or sequence of merged objects, every path mapping", "why_tests_cant": "the hash seed differs from process to process; a test sees one order", "anchors": ["src/object_info.rs: merge", "src/line.rs: remap", "src/mapping.rs: PathMappings::new"]}
{"id": "C67", "title": "Symbolication", "statement": "Looking an address up in the printed symbol file gives the frames that the debug information has for it: the function, each inlined call with the place it was made from, and the innermost line, with their mapped paths and printed names.", "quantifier": "every well-formed object and every address of every function", "why_tests_cant": "all programs and all addresses; tests compare counts and a few records", "anchors": ["src/collector.rs", "src/line.rs", "src/object_info.rs: Display"]}
{"id": "C68", "title": "Several files, all stored", "statement": "When a run over several files ends, each input has its module at the destination asked for, complete, made of exactly the inputs with the same debug id.", "quantifier": "every set of inputs, number of jobs, interleaving and hash order", "why_tests_cant": "no test runs several files; the file left behind depends on the schedule", "anchors": ["src/dumper.rs: several_files, consumer, send_store_jobs, store"]}
{"id": "C69", "title": "Same file alone or with others", "statement": "With a store, and without --symbol-server and ids, an input whose debug id no other input has gets the same symbol file in a run over several files as in a run of its own.", "quantifier": "every set of inputs, number of jobs, interleaving and hash order", "why_tests_cant": "compares two whole runs over all schedules", "anchors": ["src/dumper.rs: several_files, single_file"]}
{"id": "C70", "title": "Listing architectures", "statement": "With --list-arch, the files are taken in order and for each the name and the architectures of all its objects are printed; the first file for which this is impossible ends the listing with a failure; nothing else is written.", "quantifier": "every list of files and every disk", "why_tests_cant": "no test lists architectures", "anchors": ["src/action.rs: action", "src/mac.rs: print_macho_architectures"]}
{"id": "C71", "title": "Exit status", "statement": "The program ends with status 0 exactly when everything asked for has been done; unusable options end it with another status before anything is written.", "quantifier": "every command line, disk and schedule", "why_tests_cant": "no test runs the program itself; needs failing disks and particular schedules", "anchors": ["src/main.rs: main", "src/action.rs: action", "src/dumper.rs: several_files"]}
{"id": "C72", "title": "Recorded source paths", "statement": "The path recorded for a source file is its name if that is absolute, otherwise its directory joined with its name, and if the directory is relative or missing, below the compilation directory; for files of the machine's own platform the real path is recorded if the file exists, and otherwise the path with . and .. resolved.", "quantifier": "every directory, name, compilation directory, platform and file system", "why_tests_cant": "tests compare a few fixed outputs made on one machine", "anchors": ["src/source.rs: SourceFiles::get_path", "src/utils.rs: normalize_path", "src/object_info.rs: from_object"]}
{"id": "C73", "title": "Identification records", "statement": "The MODULE record of the symbol file of a single input gives the operating system, architecture and debug id of the object dumped, and its debug file name without directories; INFO CODE_ID gives the code id in upper case, taken from the PE when a PDB is dumped along with it, and the name of the PE; the unwind records are those of the PE if it has any, else of the object.", "quantifier": "every input file in every format, every disk and every architecture asked for", "why_tests_cant": "only a few objects are available to tests", "anchors": ["src/dumper.rs: get_object_info", "src/object_info.rs: from_object", "src/windows/pdb.rs: PDBInfo"]}
{"id": "C74", "title": "Options hold for every format", "statement": "Whatever the format of the input, --inlines and the path mappings have their effect on its symbol file.", "quantifier": "every input file, format and combination of options", "why_tests_cant": "no test combines the options with each format", "anchors": ["src/windows/pdb.rs: from_pe", "src/dumper.rs: get_object_info"]}
{"id": "C75", "title": "One name for a function", "statement": "A function has the same name in the symbol file whether its name comes from the debug information, from the symbol table, or from an inlined call (there without control characters).", "quantifier": "every name, language and demangler", "why_tests_cant": "no test has a function both ways", "anchors": ["src/collector.rs: demangle, demangle_str", "src/inline_origins.rs: demangle"]}
{"id": "C76", "title": "Embedded debug data", "statement": "The public symbols of an object embedded in the first .gnu_debugdata section are recorded as if they came last in the file's own symbol table; data that cannot be unpacked or parsed, or does not lie within the file, has no effect.", "quantifier": "every object file, section table and embedded data", "why_tests_cant": "one test covers one well-formed file", "anchors": ["src/symbol.rs: get_compressed_minidebuginfo", "src/object_info.rs: from_object"]}
{"id": "C77", "title": "What is read from a path", "statement": "A file is read as its bytes; a bundle directory as the only file of its DWARF directory; and if the bytes are a cabinet, as the contents of its first entry that has the file's name with the uncompressed extension. In every other case the run stops.", "quantifier": "every disk, path and cabinet", "why_tests_cant": "all directory and cabinet contents", "anchors": ["src/utils.rs: read_file, get_mac_bundle, read_cabinet, get_cabinet_files, get_corrected_path"]}
{"id": "C78", "title": "Merging keeps lookups", "statement": "Looking an address up in the symbol file of two merged objects finds the function, source line and inlined frames that the file of the object containing it alone gives, and so those its debug information describes, when the other object has no function at the same start, or starting between there and the address.", "quantifier": "every pair of dumps with the same debug identifier, every address and iteration order of the path table", "why_tests_cant": "no test looks an address up in merged output", "anchors": ["src/object_info.rs: merge", "src/source.rs: merge", "src/inline_origins.rs: merge_inline_origins"]}
{"id": "C79", "title": "Source paths go through the configured mappings", "statement": "Every FILE record of a dumped file names a source file the debug information refers to: its recorded path, replaced by the answer of the first configured mapping that applies to it. A path to which none applies, or for which the mapping that applies cannot be worked out, is kept.", "quantifier": "every mapping configuration, debug information, platform and file system", "why_tests_cant": "tests map a handful of paths by hand-made mappings, without a dump", "anchors": ["src/source.rs: get_id", "src/mapping.rs: PathMappings::map", "src/utils.rs: read"]}
{"id": "C80", "title": "Which server a file is fetched from", "statement": "When no cache has the file, each configured server is asked, in order, for the file and for its compressed form; the file returned is the one of the first configured server that has it, uncompressed, and what that server sent is stored in its cache.", "quantifier": "every list of servers, file name, id, disk and behaviour of the network", "why_tests_cant": "tests use a single server that is there or not", "anchors": ["src/cache.rs: search_file", "src/cache.rs: get_jobs", "src/cache.rs: check_data", "src/cache.rs: fetch_data"]}
{"id": "C81", "title": "What a file is dumped from", "statement": "A run on one file makes its module from exactly one source: an ELF object; the only object of a Mach-O file, or its first readable one of the requested architecture; a PDB with the first PE beside it that has its debug id; a PE with its PDB, which is the first file among the recorded path, the PE's directory, its compressed form there and the last place, or else the one found in the caches and on the symbol servers; or the PE alone when there is no usable PDB. The options given are used in each case but the last. If none of this applies, the run fails.", "quantifier": "every file, configuration, disk, configuration file and behaviour of the servers", "why_tests_cant": "tests dump files with or without a neighbour; the combinations of neighbours, caches, servers and broken files are not covered", "anchors": ["src/dumper.rs: single_file", "src/dumper.rs: get_object_info", "src/dumper.rs: get_pe_pdb_object_info", "src/windows/utils.rs: get_pe_pdb_buf", "src/windows/utils.rs: find_pe_for_pdb", "src/mac.rs: from_macho"]}
{"id": "C82", "title": "What the FUNC and PUBLIC records of a dump stand for", "statement": "Each FUNC and PUBLIC record of a dump stands for the first function at its address, an exception entry of a PE where there is no function, the first public symbol (of the file or its embedded debug data) where there is neither, an executable ELF section, or the end of a PE or PDB, with the name, size and flags that go with it. No function is missing; no exception entry or public symbol is missing unless it lies within another record or is a compiler-made constant; no executable section is missing. There is one record per address, in ascending order.", "quantifier": "every object file with readable debug information and every platform", "why_tests_cant": "tests compare the output for a few files; they do not relate each record to the debug information", "anchors": ["src/object_info.rs: from_object", "src/collector.rs: collect_functions, collect_publics, collect_placeholder_functions", "src/symbol.rs: add_executable_section_symbols"]}
{"id": "C83", "title": "One-line texts give a readable symbol file", "statement": "The symbol file of a dumped file can be read back record by record when the texts of the input are on one line: architecture and ids without blanks, names, source paths as they are printed, public symbols, sections and unwind records without line breaks. Merging keeps this.", "quantifier": "every object file with readable debug information, every platform, path mapping and list of INFO lines", "why_tests_cant": "tests use files with ordinary names; the effect of a line break in any of the texts is not exercised", "anchors": ["src/object_info.rs: from_object, fmt, merge", "src/symbol.rs: fmt", "src/source.rs: merge"]}
{"id": "C84", "title": "From the command line to the frames", "statement": "The program run on one file, for which something to dump is found, whose debug information can be read and whose texts are on one line, ends with status 0 if the destinations take what is written, and each destination the options ask for then holds one and the same text. That text can be read back; its header, INFO, FILE, FUNC, PUBLIC and STACK records are those of the dumped file and the options, and looking an address up in it gives the function, inlined calls, mapped source paths and line numbers of the debug information.", "quantifier": "every set of options with one file, every input format, disk, cache and server state, path mapping, and address", "why_tests_cant": "tests check parts of the way for a few inputs; none relates what is looked up in the written file to the debug information of the input", "anchors": ["src/main.rs: main", "src/action.rs: action", "src/dumper.rs: single_file, store", "src/object_info.rs: from_object, fmt", "src/collector.rs: collect_functions"]}
{"id": "C85", "title": "Several files, from the command line to the frames", "statement": "The program run on several files with a store, all readable and with texts on one line, ends with status 0 if it ends. Each input then has its place in the store, which holds the text of a module made of exactly the inputs with that debug id, each taken once; the text can be read back and carries that debug id. If no other input has the debug id, the text describes the input as in C84. If two inputs share one, looking an address of a function of either up in the text gives the frames of its own debug information, unless a function of the other one starts between the start of that function and the address. When all inputs share one debug id, the same holds without a store: every destination asked for, an output file or the standard output, holds the text of the one module made of all of them.", "quantifier": "every set of options with several files, every schedule of the threads, every hash table order, every disk state and address", "why_tests_cant": "the result depends on the schedule and on hash table orders, and tests run one schedule and compare no frames", "anchors": ["src/main.rs: main", "src/dumper.rs: several_files, consumer, send_store_jobs, store", "src/object_info.rs: merge, fmt"]}
{"id": "C86", "title": "No crash on one file", "statement": "A run on one file ends with status 0 or 1 and never crashes: whatever is wrong with the options, the input, the disk, the servers or the destinations is reported as an error.", "quantifier": "every set of options with one file, every input, disk, cache and server state, and every way the destinations can fail", "why_tests_cant": "the ways to fail come from the surroundings and combine with every format and option; tests try a handful", "anchors": ["src/main.rs: main", "src/dumper.rs: single_file, get_from_id, store", "src/utils.rs: read_file", "src/cache.rs: get_jobs, copy_in_cache, search_file", "src/windows/utils.rs: get_pe_pdb_buf, find_pe_for_pdb", "src/mapping.rs: get_mappings_from_file, get_digest", "src/symbol.rs: get_compressed_minidebuginfo"]}
{"id": "C87", "title": "What a command line means", "statement": "A command line is accepted if and only if it consists of files, options and flags in their documented spellings (long or short, the value separate or attached, in any order, files only after --), with at least one file and no single option or flag given twice. The options then have exactly the given values and otherwise their defaults, whatever the order, and any files and values can be given. Any other command line ends the process with status 2, or 0 if help or the version is asked for before anything is wrong.", "quantifier": "every list of arguments", "why_tests_cant": "the repository only checks that the table of arguments is consistent (verify_cli); the spellings and orders are unbounded", "anchors": ["src/main.rs: cli, main", "src/common.rs: get_compile_time_arch"]}
{"id": "C88", "title": "A build without HTTP", "statement": "A program built without the http feature does with every file given by its path what the full program does when no symbol server has to be asked.", "quantifier": "every input file, configuration and disk", "why_tests_cant": "the tests are built with the default features", "anchors": ["src/dumper.rs: get_pe_pdb_object_info (both), get_from_id (both), get_object_info, Config::with_output"]}
{"id": "C89", "title": "What is written when a process is stopped", "statement": "At every moment of a dump, so also when it is killed or crashes, a file that was not asked for is as it was before, and a file that was asked for is as it was before or holds a beginning of the symbol file of a module made of the inputs, never a mixture. When one file is dumped to a file, a stream or a store, each beginning of its symbol file is what is there at some moment.", "quantifier": "every input, option, schedule of the threads and number of bytes a write takes", "why_tests_cant": "tests look at files after the end of a run, and never at two workers writing at the same time", "anchors": ["src/dumper.rs: store, get_writer_for_sym, consumer, send_store_jobs, several_files, single_file"]}
{"id": "C90", "title": "No crash on several files", "statement": "A run on several files does not crash: whatever is wrong with the inputs, the mapping file or the output makes the process end with an error and status 1.", "quantifier": "every list of files, option, disk, output and schedule of the threads", "why_tests_cant": "the tests give several files that can all be read and written, and run one schedule", "anchors": ["src/dumper.rs: consumer, parse_file, several_files, store, send_store_jobs, get_writer_for_sym", "src/main.rs: main"]}
{"id": "C91", "title": "What --inlines and the path mappings change", "statement": "Two successful runs on the same file whose options differ only in --inlines and the path mappings write, to the same destinations, symbol files that agree in the MODULE, INFO, STACK, FUNC and PUBLIC records. If they agree in --inlines, they agree in every record but the paths of the FILE records, and FILE records with the same number come from the same path, mapped by the rules of the one and of the other.", "quantifier": "every file, disk, and pair of options that differ in this way only", "why_tests_cant": "it is about pairs of runs, while the tests compare single runs with stored outputs", "anchors": ["src/object_info.rs: ObjectInfo::from_object, Collector::collect_function", "src/source.rs: SourceFiles::get_id, get_true_id", "src/dumper.rs: get_object_info, single_file"]}
{"id": "C92", "title": "The defaults of the library", "statement": "Config::with_output gives the configuration that the command line gives with --check-cfi, --inlines and -j 1, the same output options and no other option that is used for dumping; in particular the architecture is the one of the build.", "quantifier": "every build architecture, output and command line of this kind", "why_tests_cant": "the tests use with_output and the command line separately and never compare them", "anchors": ["src/dumper.rs: Config::with_output", "src/main.rs: main", "src/common.rs: get_compile_time_arch"]}
{"id": "C93", "title": "Running again", "statement": "When a run on one file got a module, running it again on what it left behind (caches and destinations), with the same answers of the symbol servers and room on the disk for what is downloaded, gives the same module and the same outcome, stores nothing new in the caches, leaves every file as it was and prints the same text; if the file was given by its path and the first run put something in a cache, the second run makes no request at all. What a run writes does not depend on what its destinations held before.", "quantifier": "every file, disk, option and answer of the symbol servers", "why_tests_cant": "the tests run once on an empty temporary directory, and what is found the second time depends on which of several places the first run filled", "anchors": ["src/cache.rs: search_file, search_in_cache, copy_in_cache", "src/windows/utils.rs: get_pe_pdb_buf, os_specific_try_to_find_pdb", "src/dumper.rs: single_file, get_from_id, store"]}
{"id": "C94", "title": "The number of jobs and the order of the files", "statement": "Two runs over the same files, no two of which have the same debug id, that store into the same directory: if both end, both end with status 0, print nothing and leave the same files, whatever the order in which the files are given, the number of jobs and of CPUs, the schedule of the threads and the order of the hash tables.", "quantifier": "every set of readable files with different debug ids, order, number of jobs, schedule and state of the disk in which the files can be read", "why_tests_cant": "it is about pairs of runs and about every schedule; the tests run several files once", "anchors": ["src/dumper.rs: several_files, send_store_jobs, consumer, store, get_writer_for_sym"]}
{"id": "C95", "title": "What a run over several files says about failures", "statement": "A run over several files that returns has logged no error exactly when it read every input and wrote every module; it logs at most one error for each worker. The errors are printed unless --verbose off is given.", "quantifier": "every set of inputs, readable or not, number of workers, schedule and value of --verbose", "why_tests_cant": "the exit status is 0 in either case, and which worker meets a failure depends on the schedule", "anchors": ["src/dumper.rs: several_files, consumer", "src/main.rs: main"]}
{"id": "C96", "title": "A module given several times", "statement": "When a run over several files is given the same module k times, the symbol file written for it has the same MODULE, INFO, FILE, FUNC and PUBLIC records, lines and inlined calls as when it is given once, except that each FUNC is marked as one of several, and the INLINE_ORIGIN and STACK records are there k times; a lookup of any address finds the same frames. This does not depend on the schedule or the order of the hash tables.", "quantifier": "every dump, number of copies, other inputs with other debug ids, schedule and hash order", "why_tests_cant": "the tests merge different files only, and the result could depend on the schedule", "anchors": ["src/object_info.rs: ObjectInfo::merge", "src/inline_origins.rs: merge_inline_origins", "src/source.rs: SourceMap::merge", "src/dumper.rs: consumer"]}
{"id": "C97", "title": "Inputs that need the same download", "statement": "In a run over several files, what an input gives does not depend on what the workers of the other inputs are downloading at that moment: inputs that can each be dumped alone can be dumped together.", "quantifier": "every set of inputs, configuration of symbol servers, cache contents, and moment at which a worker reads while others write to the caches", "why_tests_cant": "needs two workers at particular points of a download", "anchors": ["src/cache.rs: copy_in_cache, search_in_cache, search_file", "src/dumper.rs: several_files, consumer", "src/windows/utils.rs: get_pe_pdb_buf"]}
{"id": "C98", "title": "Processes that store the same symbol file at the same time", "statement": "When processes that dump one file each run at the same time, and all that write to a file have the same text for it, then once they have ended the file holds exactly that text, as if one of them had run alone; and a file that none of them is asked to write is never changed.", "quantifier": "every number of processes, options and inputs, every interleaving of their calls, every number of bytes taken by each call, every previous contents", "why_tests_cant": "depends on how the system interleaves the calls; creating the file empties it while another process is writing, so the file can have a gap of zeros in between", "anchors": ["src/dumper.rs: store, get_writer_for_sym, single_file", "src/main.rs: main"]}
{"id": "C99", "title": "One file after the other, and the same files again", "statement": "Files with different debug ids that are stored into a directory: running the program on one file after the other leaves the same files, standard output and standard error as one run over all of them that ends; and a second run over the same files leaves every file exactly as the first run left it, whatever the caches, the number of jobs and the schedule are then.", "quantifier": "every set of readable files with different debug ids, without a search for other files, every schedule and every state of the caches in which the files can be read", "why_tests_cant": "it is about sequences of runs and every schedule of each of them; the tests run the program once", "anchors": ["src/dumper.rs: single_file, several_files, store, get_writer_for_sym", "src/main.rs: main"]}
{"id": "C100", "title": "The machine the program runs on does not matter", "statement": "The symbol files, the standard output and standard error and the exit status of a run are the same on every machine, whatever operating system it has.", "quantifier": "every command line without --debug-id and --code-id, every input, every pair of operating systems", "why_tests_cant": "the tests run on one machine; the path of a source file is put together by Path::join and normalize_path when the file is of the platform of the host and by string rules otherwise", "anchors": ["src/source.rs: SourceFiles::get_path", "src/platform.rs: Platform::is_target", "src/utils.rs: normalize_path"]}
{"id": "C101", "title": "The symbol file is at most linear in the debug information", "statement": "A symbol file holds at most one FUNC or PUBLIC record for each function, public symbol, exception table entry and executable section of its inputs (one more for PE and PDB), one FILE record for each line entry, one INLINE_ORIGIN record for each inlined call, one line record for each line entry of a function and two for each line entry of what is inlined into it, and one INLINE record and one range for each of the latter.", "quantifier": "every set of acceptable object files merged in every order, with every nesting of inlined calls", "why_tests_cant": "inlined calls cut the lines of their callers at every level of nesting, so whether the number of records could multiply with the depth is a question about all inputs", "anchors": ["src/collector.rs: collect_function, collect_function_with_inlines_recursive, collect_publics, collect_placeholder_functions", "src/object_info.rs: ObjectInfo::merge", "src/line.rs: Lines::finalize"]}
{"id": "C102", "title": "A build with overflow checks does the same", "statement": "The program built with overflow checks, as the tests and debug builds are, makes of every object file and of every sequence of merges the same object as the release build, in which additions wrap.", "quantifier": "every object file (all addresses, sizes, line entries and nestings of inlined calls) and every tree of merges", "why_tests_cant": "the tests are built with overflow checks and users run the release build; whether the two can differ depends on addresses at the end of the 32-bit and 64-bit ranges, in all combinations of functions, lines, public symbols, exception entries and merged files", "anchors": ["src/symbol.rs: is_inside_symbol, append_dummy_symbol_pe_pdb", "src/line.rs: Lines::compute_len, Lines::ensure_order", "src/collector.rs: collect_function_with_inlines_recursive, collect_publics, collect_placeholder_functions", "src/object_info.rs: ObjectInfo::merge", "src/inline_origins.rs: InlineOrigins::merge"]}
{"id": "C103", "title": "Which mapping configurations are accepted", "statement": "A mapping file is accepted exactly when it is JSON for an object with one entry for each of its two tables (or the array of both), where variables are an object of strings and each mapping has exactly one source, destination and list of files; other keys are ignored. The mappings are made exactly when every variable given on the command line has a value, sources and destinations are both given, as many of each, or both not given, the mapping file can be read and is accepted, and for every rule the expression is one and every action of the destination is a digest, a variable or a number.", "quantifier": "every JSON value, every list of variables, sources and destinations, and every mapping file", "why_tests_cant": "the tests read one mapping file; acceptance is a condition on all values and on all combinations of the four options, where one bad rule among many must be enough to fail and nothing else may be", "anchors": ["src/mapping.rs: Mapping, Mappings, PathMappings::new, get_variables, get_mappings, get_mappings_from_file, PathMappingGenerator::new"]}
{"id": "C104", "title": "The symbol store on a Windows machine", "statement": "On Windows too, the symbol file of a module is DIR\\NAME\\ID\\BASE.sym, in the directory of the store and nowhere else, whatever the name of the module, and two modules share a file only if their identifiers are equal.", "quantifier": "every store directory, module name and identifier", "why_tests_cant": "the tests of the paths in the store have ordinary names and run on one system; which names leave the store depends on drives, two separators and verbatim prefixes", "anchors": ["src/utils.rs: get_base, get_path_for_sym", "src/dumper.rs: store"]}
{"id": "C105", "title": "Path normalization on a Windows machine", "statement": "On Windows, normalizing a path keeps its prefix (drive, share or device) and its root, yields the names that are left after resolving . and .. lexically, separated by single backslashes, never turns an absolute path into a relative one, and is idempotent.", "quantifier": "every path", "why_tests_cant": "the code is tested on Unix, where there are no prefixes; a Windows path has six kinds of prefix, two separators and names that look like drives", "anchors": ["src/utils.rs: normalize_path", "src/source.rs: get_path"]}
{"id": "C106", "title": "A destination may be one of the files that are read", "statement": "In a run over several files everything that is read is read before anything is written. So a destination may be an input, a file beside one, a file of a cache or a source file, under any name: the run ends in the same ways and leaves the same as if the destinations were kept apart from all that is read.", "quantifier": "every list of inputs, every destination, every number of jobs and every schedule", "why_tests_cant": "a test runs one schedule, on which a file read too late may happen to be read in time; the order must hold between every pair of workers", "anchors": ["src/dumper.rs: consumer, send_store_jobs, store, several_files"]}
{"id": "C107", "title": "Reading a file on a Windows machine", "statement": "On Windows, reading a path gives the bytes of the file there; if these are a cabinet, the contents of its first entry whose file name is the name of the file with the expanded extension; and for a directory, the only file of its DWARF directory. In every other case the run stops.", "quantifier": "every disk, every cabinet reader, and every directory that is relative, on a drive, on a share or on a device", "why_tests_cant": "the tests read a few paths on one system; here the names of files and of cabinet entries are cut at both separators, behind any prefix", "anchors": ["src/utils.rs: read_file, get_mac_bundle, read_cabinet, get_corrected_path, get_cabinet_files, get_filename"]}
{"id": "C108", "title": "The PE of a PDB on a Windows machine", "statement": "On Windows, the PE that is taken for a PDB is the first of the files with extension dll, dl_, exe and ex_ beside it that is a PE with the debug id of the PDB, reported with the expanded extension; none if none of them is. Files that are no PE or have another id are passed over.", "quantifier": "every disk, every PDB path that is not verbatim, every debug id", "why_tests_cant": "all contents of four files, and all forms of Windows paths", "anchors": ["src/windows/utils.rs: find_pe_for_pdb, fix_extension"]}
{"id": "C109", "title": "Where the PDB of a PE is found on a Windows machine", "statement": "On Windows, the PDB of a PE is the first that exists among the path recorded in the PE, the file of that name beside the PE, its compressed form there, and the file of that name in the current working directory.", "quantifier": "every disk, every PE path, every recorded PDB path", "why_tests_cant": "all disk contents and current directories, and all forms of Windows paths", "anchors": ["src/windows/utils.rs: try_to_find_pdb, os_specific_try_to_find_pdb"]}
{"id": "C110", "title": "Caches and symbol servers on a Windows machine", "statement": "On Windows, a searched file is taken from the first cache that has it at BASE\\ID\\NAME, without a request; else the server that answers first sends it, and what it sent is stored at that place of its cache if it has one and is found there by later searches. A search changes no other file. Empty answers and 'Symbol Not Found' pages are neither stored nor returned. The servers are those of the symbol path given or of .dump_syms\\config in the home directory. In every other case the program panics.", "quantifier": "every list of servers whose caches are directories on drives, shares, devices or relative ones, every name and id that Windows allows in a directory, every disk and behaviour of the network", "why_tests_cant": "all forms of Windows paths, all disks and behaviours of the network; the tests of the cache run on Unix paths", "anchors": ["src/cache.rs: search_file, search_in_cache, get_jobs, fetch_data, copy_in_cache, read_config, get_sym_servers"]}
{"id": "C111", "title": "Which PDB is taken for a PE on a Windows machine", "statement": "On Windows, the PDB taken for a PE is the first on the disk among the places of C109; if there is none, what the search of C110 gives for the recorded name and the debug id of the PE; none if no path is recorded or it names no file. In every other case the program panics.", "quantifier": "every disk, PE, recorded path, list of servers and behaviour of the network", "why_tests_cant": "combinations of disks, caches and servers with all forms of Windows paths", "anchors": ["src/windows/utils.rs: get_pe_pdb_buf"]}
{"id": "C112", "title": "What one file is dumped from on a Windows machine", "statement": "On Windows, a run on one file reads the file at the path (or, if an id is given, what the search for its name and that id gives) and makes the module from exactly: an ELF, the slice of a Mach-O with the architecture asked for, a PDB with the PE beside it that has its debug id, a PE with the PDB found for it, or a PE alone when no PDB is found or the one found cannot be used.", "quantifier": "every disk, network, configuration and path that is not verbatim, for a PE whose recorded path ends in a name Windows allows", "why_tests_cant": "combinations of formats, disks, caches and servers with all forms of Windows paths; the tests cannot run the Windows code on another system", "anchors": ["src/dumper.rs: single_file, get_object_info, get_pdb_object_info, get_pe_pdb_object_info, get_from_id"]}
{"id": "C113", "title": "Where the symbol file of one file goes on a Windows machine", "statement": "On Windows, a run on one file that succeeds has written the complete text of the module to the output file or stream and to STORE\\NAME\\ID\\FILE.sym in the store, whichever are asked for, and has changed no other file; a run whose input cannot be turned into a module writes nothing; storing never crashes.", "quantifier": "every module, output, store directory that is not verbatim, and behaviour of the disk", "why_tests_cant": "all names recorded in files and all forms of Windows paths", "anchors": ["src/dumper.rs: single_file, store, get_writer_for_sym", "src/utils.rs: get_path_for_sym"]}
{"id": "C114", "title": "Several files on a Windows machine", "statement": "On Windows, with a store, when a run over several files ends, each input has its module in the store, complete, made of exactly the inputs with the same debug id; an input whose debug id no other input has gets the same symbol file as in a run of its own; and at every moment before the end each file in the store is as before, or has a beginning of the text of a module of its debug id.", "quantifier": "every set of inputs, number of jobs, interleaving, hash order and store directory that is not verbatim, for modules whose name and debug id are names Windows allows", "why_tests_cant": "no test runs several files; the tests cannot run the Windows code on another system; the files left behind depend on the schedule", "anchors": ["src/dumper.rs: several_files, consumer, send_store_jobs, store"]}
{"id": "C115", "title": "How the program ends on a Windows machine", "statement": "On Windows, the program ends with status 0 exactly when everything asked for has been done: with --list-arch every file has been listed, otherwise every module has been written to the destinations the options name; unusable options end it with another status before anything is written.", "quantifier": "every command line with paths that are not verbatim, every disk and every schedule", "why_tests_cant": "no test runs the program itself; needs failing disks and particular schedules, and a Windows machine", "anchors": ["src/main.rs: main", "src/action.rs: action", "src/dumper.rs: several_files"]}
{"id": "C116", "title": "No crash on one file on a Windows machine", "statement": "On a Windows machine a run on one file ends with status 0 or 1 and never crashes: whatever is wrong with the options, the input, the disk, the servers, the store or the destinations is reported as an error.", "quantifier": "every set of options with one file whose path is not verbatim, every input, disk, cache and server state, every store directory and module name, and every way the destinations can fail", "why_tests_cant": "the ways to fail come from the surroundings and combine with every format, option and form of Windows path; the tests run on few machines and try a handful of failures", "anchors": ["src/main.rs: main", "src/dumper.rs: single_file, get_from_id, get_object_info, store", "src/utils.rs: read_file", "src/cache.rs: get_jobs, copy_in_cache, search_file, read_config", "src/windows/utils.rs: get_pe_pdb_buf, find_pe_for_pdb", "src/mapping.rs: get_mappings_from_file, get_digest", "src/symbol.rs: get_compressed_minidebuginfo"]}
{"id": "C117", "title": "Wrong options for path mappings are reported", "statement": "The options for path mappings are accepted exactly when every variable has the form var=value, the mapping file, if given, can be read and understood, sources and destinations are given in equal number, every regular expression is valid and every action of every destination means something; otherwise an error names the first thing that is wrong.", "quantifier": "every list of variables, sources and destinations, every mapping file and contents", "why_tests_cant": "there are tests for correct mappings only, and none for what is said about wrong ones", "anchors": ["src/mapping.rs: PathMappings::new, get_variables, get_mappings_from_file, get_mappings_from_cli, PathMappingGenerator::new"]}
{"id": "C118", "title": "A reported error says what went wrong", "statement": "When the program ends with an error, what it prints says what went wrong: the file searched for that is not found, the wrong option, the unknown format, the message of the parser, the missing architecture, the missing CFI data, the directory of the store that cannot be created, or the destination that has no room; and each of these, when it is the first, is what is printed.", "quantifier": "every set of options, every input, disk, cache and server state", "why_tests_cant": "the tests run the library on inputs that can be dumped; what is printed otherwise is looked at by no test", "anchors": ["src/main.rs: main", "src/dumper.rs: single_file, several_files, get_object_info, get_from_id, ObjectInfo::from_macho, store", "src/mapping.rs: PathMappings::new"]}
{"id": "C119", "title": "A reported error says what went wrong on a Windows machine", "statement": "When the program ends with an error on a Windows machine, what it prints says what went wrong, as on Unix (C118): the file searched for that is not found, the wrong option, the unknown format, the message of the parser, the missing architecture, the missing CFI data, the directory of the store that cannot be created, or the destination that has no room; and each of these, when it is the first, is what is printed.", "quantifier": "every set of options, every input, disk, cache and server state, paths of Windows", "why_tests_cant": "the tests run the library on inputs that can be dumped; what is printed otherwise is looked at by no test", "anchors": ["src/main.rs: main", "src/dumper.rs: single_file, several_files, get_object_info, get_from_id, ObjectInfo::from_macho, store", "src/mapping.rs: PathMappings::new"]}
{"id": "C120", "title": "No crash on several files on a Windows machine", "statement": "On Windows, a run on several files does not crash: whatever is wrong with the inputs, the mapping file or the output makes the process end with an error and status 1.", "quantifier": "every list of files, option, disk, output and schedule of the threads, paths of Windows", "why_tests_cant": "no test runs several files; the tests cannot run the Windows code on another system, and run one schedule", "anchors": ["src/dumper.rs: consumer, parse_file, several_files, store, send_store_jobs, get_writer_for_sym", "src/main.rs: main"]}
{"id": "C121", "title": "From the command line to the frames on a Windows machine", "statement": "As C84 on Windows: the program run on one file, for which something to dump is found, whose debug information can be read and whose texts are on one line, ends with status 0 if the destinations take what is written and, where a store is asked for, the store is not verbatim and the name and the id of the module are names Windows allows. Each destination asked for then holds one and the same text, which can be read back, has the records of the dumped file and the options, and gives for an address the function, inlined calls, mapped source paths and line numbers of the debug information.", "quantifier": "every set of options with one file, every input format, disk, cache and server state, path mapping, and address, paths of Windows", "why_tests_cant": "the tests cannot run the Windows code on another system; none relates what is looked up in the written file to the debug information of the input", "anchors": ["src/main.rs: main", "src/action.rs: action", "src/dumper.rs: single_file, store, get_from_id, get_pe_pdb_object_info", "src/object_info.rs: from_object, fmt", "src/collector.rs: collect_functions"]}
{"id": "C122", "title": "Several files, from the command line to the frames, on a Windows machine", "statement": "As C85 on Windows: the program run on several files, all readable, with texts on one line and with names and debug ids that Windows allows, ends with status 0 if it ends, where a store that is asked for is not verbatim. With a store, each input has its place in the store, which holds the text of a module made of exactly the inputs with that debug id, each taken once; the text can be read back, carries that debug id, and describes the input if no other one has its debug id. If two inputs share one, an address of a function of either gives the frames of its own debug information, unless a function of the other one starts in between. When all inputs share one debug id, the same holds without a store. With at least two files the program can end exactly if it has two or more jobs, or one job and one debug id.", "quantifier": "every set of options with several files, every schedule of the threads, every hash table order, every disk state and address, paths of Windows", "why_tests_cant": "the tests cannot run the Windows code on another system; the result depends on the schedule and on hash table orders, and tests run one schedule and compare no frames", "anchors": ["src/main.rs: main", "src/dumper.rs: several_files, consumer, send_store_jobs, store", "src/object_info.rs: merge, fmt"]}
{"id": "C123", "title": "Order, jobs and one file after the other on a Windows machine", "statement": "As C94 and C99 on Windows, for files with different debug ids that are stored into a directory, with names that Windows allows: two runs over the same files, in any order and with any number of jobs and any schedule, leave the same files if they end; running the program on one file after the other leaves the same files as one run over all of them; a second run over the files leaves them as they were. Each input has its symbol file in its place in the store, and every other file and the standard streams are as before.", "quantifier": "every set of options and of files with different debug ids, every order of the files, number of jobs and CPUs, schedule, hash table order and disk state, paths of Windows", "why_tests_cant": "the tests cannot run the Windows code on another system; they run one schedule and one order", "anchors": ["src/main.rs: main", "src/dumper.rs: several_files, single_file, consumer, send_store_jobs, store"]}
{"id": "C124", "title": "The same store from a Windows machine and from another one", "statement": "The same object files, with different debug ids, are dumped into a store by a run on a Windows machine and by a run on a machine of another kind, from whatever directories, with the same rules, extra INFO lines and inline setting. If both runs end, both end with status 0, and each input has its symbol file under the same name and debug id in both stores, with the same bytes.", "quantifier": "every set of files with different debug ids, every order, number of jobs, schedule, hash table order and disk state on each of the machines, paths of Windows on the one and of Unix on the other", "why_tests_cant": "a test runs on one machine and compares with expected output; the paths, the store layout and the source path code differ by platform", "anchors": ["src/main.rs: main", "src/dumper.rs: several_files, single_file, store, get_from_id", "src/utils.rs: get_sym_file_output_path", "src/source.rs: SourceFiles::get_path"]}
{"id": "C125", "title": "Any number of files with one debug id", "statement": "In a run on several files with a store that ends, the place of a debug id in the store holds one text for all inputs that have it, however many. Looking up an address of a function of any of them in that text gives the frames of the debug information of that input, unless a function of another one of them starts between the start of the function and the address. Without a store the same holds of every destination if all inputs have one debug id.", "quantifier": "every number of inputs with one debug id, every schedule of the threads (so every order in which the modules are merged), every hash table order, disk state and address", "why_tests_cant": "merging is tested with two files, and the order in which three or more are merged depends on the threads", "anchors": ["src/dumper.rs: several_files, consumer, store", "src/object_info.rs: merge", "src/source.rs: SourceMap::merge"]}
{"id": "C126", "title": "Any number of files with one debug id, on a Windows machine", "statement": "In a run on several files with a store that ends on a Windows machine, the place of a debug id in the store holds one text for all inputs that have it, however many. Looking up an address of a function of any of them in that text gives the frames of the debug information of that input, unless a function of another one of them starts between the start of the function and the address. Without a store the same holds of every destination if all inputs have one debug id.", "quantifier": "every number of inputs with one debug id, every schedule of the threads, every hash table order, disk state and address, with the paths of Windows", "why_tests_cant": "merging is tested with two files, and the order in which three or more are merged depends on the threads", "anchors": ["src/dumper.rs: several_files, consumer, store", "src/object_info.rs: merge", "src/source.rs: SourceMap::merge"]}
{"id": "C127", "title": "Running again on a Windows machine", "statement": "When a run on one file got a module on a Windows machine, running it again on what it left behind (caches and destinations), with the same answers of the symbol servers and room on the disk for what is downloaded, gives the same module and the same outcome, stores nothing new in the caches, leaves every file as it was and prints the same text; if the file was given by its path and the first run put something in a cache, the second run makes no request at all. What a run writes does not depend on what its destinations held before.", "quantifier": "every file, disk, option and answer of the symbol servers, with the paths of Windows, where names and caches are as in C112", "why_tests_cant": "the tests run once on an empty temporary directory, and what is found the second time depends on which of several places the first run filled and on how Windows joins their paths", "anchors": ["src/cache.rs: search_file, search_in_cache, copy_in_cache", "src/windows/utils.rs: get_pe_pdb_buf, os_specific_try_to_find_pdb", "src/dumper.rs: single_file, get_from_id, store"]}
{"id": "C128", "title": "What is written when a process is stopped, on a Windows machine", "statement": "At every moment of a dump on a Windows machine, so also when it is killed or crashes, a file that was not asked for is as it was before, and a file that was asked for is as it was before or holds a beginning of the symbol file of a module made of the inputs, never a mixture. When one file is dumped to a file, a stream or a store, each beginning of its symbol file is what is there at some moment.", "quantifier": "every input, option, schedule of the threads and number of bytes a write takes, with the paths of Windows, where the names of modules and their debug ids are file names Windows allows", "why_tests_cant": "tests look at files after the end of a run, and never at two workers writing at the same time; which file a worker writes to depends on how Windows joins the parts of its path", "anchors": ["src/dumper.rs: store, get_writer_for_sym, consumer, send_store_jobs, several_files, single_file"]}
{"id": "C129", "title": "Processes that store the same symbol file at the same time, on a Windows machine", "statement": "When processes that dump one file each run at the same time on a Windows machine, and all that write to a file have the same text for it, then once they have ended the file holds exactly that text, as if one of them had run alone; and a file that none of them is asked to write is never changed.", "quantifier": "every number of processes, options and inputs, every interleaving of their calls, every number of bytes taken by each call, every previous contents, with the paths of Windows", "why_tests_cant": "depends on how the system interleaves the calls; creating the file empties it while another process is writing, so the file can have a gap of zeros in between", "anchors": ["src/dumper.rs: store, get_writer_for_sym, single_file", "src/main.rs: main"]}
{"id": "C130", "title": "A destination may be one of the files that are read, on a Windows machine", "statement": "In a run over several files on a Windows machine everything that is read is read before anything is written. So a destination may be an input, a file beside one, a file of a cache or a source file, under any name: the run ends in the same ways and leaves the same as if the destinations were kept apart from all that is read.", "quantifier": "every list of inputs, every destination, every number of jobs and every schedule, with the paths of Windows", "why_tests_cant": "a test runs one schedule, on which a file read too late may happen to be read in time; the order must hold between every pair of workers; on Windows one file has many more names (other case, short names)", "anchors": ["src/dumper.rs: consumer, send_store_jobs, store, several_files"]}
{"id": "C131", "title": "Inputs that need the same download, on a Windows machine", "statement": "In a run over several files on a Windows machine, what an input gives does not depend on what the workers of the other inputs are downloading at that moment: inputs that can each be dumped alone can be dumped together.", "quantifier": "every set of inputs, configuration of symbol servers, cache contents, and moment at which a worker reads while others write to the caches, with the paths of Windows", "why_tests_cant": "needs two workers at particular points of a download", "anchors": ["src/cache.rs: copy_in_cache, search_in_cache, search_file", "src/dumper.rs: several_files, consumer", "src/windows/utils.rs: get_pe_pdb_buf"]}
{"id": "C132", "title": "The symbol store on a disk that does not tell upper from lower case", "statement": "On a disk that takes names differing in case only for one name, as those of Windows do, modules whose debug ids differ in more than case never share a file of the store. So after a run over several files every input has its module in the store with its complete text, and at every moment what is found at a place of the store is what was there before or a beginning of the symbol file of a module with the debug id of the place.", "quantifier": "every table of upper-case counterparts that keeps the separator, every list of inputs, every schedule of the threads and number of bytes a write takes, with the paths of Windows", "why_tests_cant": "the tests are run on a disk that tells the names apart, or with one module; whether two names meet depends on the table of the disk and on every pair of modules", "anchors": ["src/utils.rs: get_path_for_sym, get_base", "src/dumper.rs: store, get_writer_for_sym, consumer, send_store_jobs"]}
{"id": "C133", "title": "The whole program built with overflow checks", "statement": "Whatever the inputs and options, a process of a build with overflow checks either crashes (exit status 101), or ends with an exit status and output files with which a process of the release build can end. With one input, a crash that the release build does not have comes before anything is written. With several inputs, everything the threads do before the first worker crashes is what they can do in the release build. When everything in the dumped object files ends below 2^32 and there are fewer than 2^32 inlined functions, the two builds end in exactly the same ways.", "quantifier": "all environments, options, inputs, disks, orders of the threads and of the hash tables", "why_tests_cant": "Tests run one of the two builds on files whose addresses are far below 2^32, and see few schedules of the threads.", "anchors": ["src/dumper.rs:388-500", "src/collector.rs:100-420", "src/symbol.rs:60-260", "src/line.rs:60-260"]}
{"id": "C134", "title": "The whole program built with overflow checks, on Windows", "statement": "On Windows, whatever the inputs and options, a process of a build with overflow checks either crashes (exit status 101), or ends with an exit status and output files with which a process of the release build can end. With one input, a crash that the release build does not have comes before anything is written. With several inputs, everything the threads do before the first worker crashes is what they can do in the release build. When everything in the dumped object files ends below 2^32 and there are fewer than 2^32 inlined functions, the two builds end in exactly the same ways.", "quantifier": "all environments, options, inputs, disks, orders of the threads and of the hash tables", "why_tests_cant": "Tests run one of the two builds on files whose addresses are far below 2^32, and see few schedules of the threads.", "anchors": ["src/dumper.rs:388-500", "src/collector.rs:100-420", "src/symbol.rs:60-260", "src/line.rs:60-260"]}
{"id": "C135", "title": "One command line in every build, and the exit status 2", "statement": "In the release build on Unix and on Windows, in the builds without the http feature and in the builds with overflow checks, which command lines are accepted and what options they give is the same. A process ends only with status 0, 1, 2 or 101. The status is 2 exactly when the command line is not accepted and does not ask for help or the version first; then nothing is written, whatever the machine, and no other status is possible. From the command line, a build with overflow checks crashes or ends as the release build for the same machine can end. From a command line that gives no id, with files that need no symbol server, the build without http can end in exactly the same ways as the one with it for the same machine.", "quantifier": "all builds, command lines of valid Unicode arguments, environments, disks, orders of the threads and of the hash tables", "why_tests_cant": "Tests run one build with the few command lines they list.", "anchors": ["src/main.rs:17-138", "src/main.rs:140-246", "src/dumper.rs:169-179", "src/dumper.rs:267-274"]}
{"id": "C136", "title": "A build without HTTP, on Windows", "statement": "On Windows too, a program built without the http feature does with every file given by its path what the full program does when no symbol server has to be asked.", "quantifier": "every input file, configuration, Windows disk and order of the threads", "why_tests_cant": "The tests are built with the default features.", "anchors": ["src/dumper.rs:169-179", "src/dumper.rs:267-274", "src/dumper.rs:276-337", "src/dumper.rs:410-490"]}
