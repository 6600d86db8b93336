import Verif.Model.Dumper
import Verif.Props.Output
import Verif.Props.WinUtils
import Verif.Props.Mapping
import Verif.Props.Main
/-!
# C56, C60 (witness), C61 to C63, C65: dumping one file
-/
namespace DumpSyms
namespace Dumper
open ObjectInfo

/-! ## C56: fat binaries -/

/-- **C56, one object.** It is dumped whatever architecture was asked for. -/
theorem C56_single (env : Env) {buf : Bytes} {o : ObjInput} (h : env.parsers.archive buf = .ok [some o]) (fileName arch : Str)
    (mapping : Option (List Mapping.Generator)) (inlines : Bool) :
    fromMacho env buf fileName arch mapping inlines = fromObject env o fileName none none .mac mapping inlines := by
  unfold fromMacho
  rw [h]; rfl

theorem selectObject_several {arch : Str} {objects : List (Option ObjInput)} (h : objects.length ≠ 1) :
    selectObject arch objects = .ok ((objects.filterMap id).find? fun o => o.arch = arch) := by
  unfold selectObject
  split
  · exact absurd rfl h
  · exact absurd rfl h
  · rfl

/-- **C56, several objects.** The first readable one of the architecture is dumped: those before it are unreadable or of another
architecture. -/
theorem C56_several (env : Env) {buf : Bytes} {arch : Str} {before after : List (Option ObjInput)} {o : ObjInput}
    (h : env.parsers.archive buf = .ok (before ++ some o :: after)) (hn : before ≠ [] ∨ after ≠ []) (ho : o.arch = arch)
    (hb : ∀ x, some x ∈ before → x.arch ≠ arch) (fileName : Str) (mapping : Option (List Mapping.Generator)) (inlines : Bool) :
    fromMacho env buf fileName arch mapping inlines = fromObject env o fileName none none .mac mapping inlines := by
  unfold fromMacho
  rw [h]
  simp only []
  rw [selectObject_several]
  · have hf : (before.filterMap id).find? (fun o => decide (o.arch = arch)) = none := by
      rw [List.find?_eq_none]
      intro x hx
      obtain ⟨y, hy, rfl⟩ := List.mem_filterMap.mp hx
      simpa using hb x (by simpa using hy)
    have : ((before ++ some o :: after).filterMap id).find? (fun o => decide (o.arch = arch)) = some o := by
      rw [List.filterMap_append, List.find?_append, hf]
      simp [ho]
    rw [this]; rfl
  · rcases hn with hn | hn
    · have := List.length_pos_iff.mpr hn; simp; omega
    · have := List.length_pos_iff.mpr hn; simp; omega

/-- **C56, no such object.** An error is reported. -/
theorem C56_none (env : Env) {buf : Bytes} {arch : Str} {objects : List (Option ObjInput)}
    (h : env.parsers.archive buf = .ok objects) (hn : objects.length ≠ 1) (hb : ∀ x, some x ∈ objects → x.arch ≠ arch)
    (fileName : Str) (mapping : Option (List Mapping.Generator)) (inlines : Bool) :
    ∃ m, fromMacho env buf fileName arch mapping inlines = .err m := by
  unfold fromMacho
  rw [h]
  simp only []
  rw [selectObject_several hn]
  have : (objects.filterMap id).find? (fun o => decide (o.arch = arch)) = none := by
    rw [List.find?_eq_none]
    intro x hx
    obtain ⟨y, hy, rfl⟩ := List.mem_filterMap.mp hx
    simpa using hb x (by simpa using hy)
  rw [this]
  exact ⟨_, rfl⟩

/-! ## C61: files asked for by id -/

/-- **C61, debug id first.** When a debug id is given, the code id does not matter. -/
theorem C61_debug_id_first (env : Env) (config : Config) (d : Str) (hd : config.debugId = some d) (c : Option Str) (path filename : Str)
    (w : Cache.World) :
    getFromId env { config with codeId := c } path filename w = getFromId env config path filename w := by
  unfold getFromId
  simp only [hd, Option.some_or]

theorem getFromId_by_path (env : Env) (config : Config) (path filename : Str) (w : Cache.World) (h1 : config.debugId = none)
    (h2 : config.codeId = none) :
    getFromId env config path filename w = (Files.readFile env.net.cab w.disk path, w) := by
  unfold getFromId
  rw [h1, h2]; rfl

/-- **C61, by path.** Without an id, the file is read from the disk, and there are no requests. -/
theorem C61_by_path (env : Env) (config : Config) (path filename : Str) (w : Cache.World) (h1 : config.debugId = none)
    (h2 : config.codeId = none) (hd : Named w.disk) :
    (getFromId env config path filename w).2 = w ∧
    (∀ b, (getFromId env config path filename w).1 = .ok b ↔ PathHolds env.net.cab w.disk path b) ∧
    ((∀ b, ¬ PathHolds env.net.cab w.disk path b) → (getFromId env config path filename w).1 = .panic) := by
  rw [getFromId_by_path env config path filename w h1 h2]
  obtain ⟨r1, r2⟩ := C77_read_any env.net.cab w.disk path (hd.files path) hd.dirs
  exact ⟨rfl, r1, fun h => r2 fun ⟨b, hb⟩ => h b ((r1 b).mp hb)⟩

/-! ## C62: one file, from the command line to the destinations -/

/-- **C62, failures.** If the input cannot be turned into a module (it cannot be read or found, is of no known format, cannot be
parsed, or the mappings or the architecture are wrong), the run fails and nothing is written. -/
theorem C62_nothing_written (env : Env) (extra : Option (List Str)) (config : Config) (path : Str) (w : Cache.World)
    (out : Output.World) (h : ∀ o, (readSingle env config path w).1 ≠ .ok o) :
    (singleFile env extra config path w out).1 ≠ .ok () ∧ (singleFile env extra config path w out).2.2 = out := by
  unfold singleFile
  simp only []
  split
  · rename_i o ho; exact absurd ho (h o)
  · exact ⟨by simp, rfl⟩
  · exact ⟨by simp, rfl⟩

theorem prepare_bad {env : Env} {config : Config} (h : env.parsers.arch config.arch = none ∨
    ∃ m, Mapping.new env.map config.mappingVar config.mappingSrc config.mappingDest config.mappingFile = .err m) :
    ∀ x, prepare env config ≠ .ok x := by
  intro x hx
  unfold prepare at hx
  rcases h with h | ⟨m, h⟩
  · rw [h] at hx
    cases hm : Mapping.new env.map config.mappingVar config.mappingSrc config.mappingDest config.mappingFile with
    | ok a => rw [hm] at hx; cases hx
    | err a => rw [hm] at hx; cases hx
    | panic => rw [hm] at hx; cases hx
  · rw [h] at hx; cases hx

/-- **C62, an unknown architecture or wrong mappings.** -/
theorem C62_bad_options (env : Env) (extra : Option (List Str)) (config : Config) (path : Str) (w : Cache.World) (out : Output.World)
    (h : env.parsers.arch config.arch = none ∨
      ∃ m, Mapping.new env.map config.mappingVar config.mappingSrc config.mappingDest config.mappingFile = .err m) :
    (singleFile env extra config path w out).1 ≠ .ok () ∧ (singleFile env extra config path w out).2.2 = out := by
  apply C62_nothing_written
  intro o ho
  have hp := prepare_bad h
  unfold readSingle at ho
  split at ho
  · simp only [] at ho
    split at ho
    · split at ho
      · rename_i x hx; exact hp _ hx
      · cases ho
      · cases ho
    · cases ho
    · cases ho
  · cases ho
  · cases ho

/-! ## C63: the module name -/

theorem fileNameOnly_no_slash (s : Str) : '/' ∉ fileNameOnly s := by
  unfold fileNameOnly
  intro h
  have := List.mem_reverse.mp h
  have := List.all_eq_true.mp (List.all_takeWhile (p := (· != '/')) (l := s.reverse)) _ this
  simp at this

theorem fileNameOnly_suffix (s : Str) : ∃ pre, s = pre ++ fileNameOnly s ∧ (pre = [] ∨ pre.getLast? = some '/') := by
  have h := List.takeWhile_append_dropWhile (p := (· != '/')) (l := s.reverse)
  refine ⟨(s.reverse.dropWhile (· != '/')).reverse, ?_, ?_⟩
  · unfold fileNameOnly
    rw [← List.reverse_append, h, List.reverse_reverse]
  · cases hd : s.reverse.dropWhile (· != '/') with
    | nil => exact .inl rfl
    | cons c cs =>
      right
      have := List.head?_dropWhile_not (p := (· != '/')) s.reverse
      rw [hd] at this
      simp only [List.head?_cons] at this
      rw [List.getLast?_reverse]
      simpa using this

theorem fromObject_fileName {env : Env} {o : ObjInput} {fileName : Str} {pe : Option ObjInput} {peName : Option Str}
    {platform : Platform} {mapping : Option (List Mapping.Generator)} {inlines : Bool} {info : ObjectInfo}
    (h : fromObject env o fileName pe peName platform mapping inlines = .ok info) :
    info.fileName = fileNameOnly (moduleName o fileName) ∧ info.platform = platform ∧ info.debugId = o.debugId ∧
      info.cpu = o.arch ∧ info.peName = peName := by
  unfold fromObject ObjectInfo.fromObject at h
  split at h
  · cases h
  · rename_i fs hfs
    cases hc : collect (cenv env platform mapping o) inlines platform o fileName peName fs with
    | err m => rw [hc] at h; cases h
    | panic => rw [hc] at h; cases h
    | ok st =>
      rw [hc] at h
      simp only [Res.bind_ok, Res.ok.injEq] at h
      subst h
      exact ⟨rfl, rfl, rfl, rfl, rfl⟩

/-- How a module comes out of a file: each way goes through `from_object`. -/
theorem getObjectInfo_fromObject {env : Env} {buf : Bytes} {path filename : Str} {mapping : Option (List Mapping.Generator)}
    {arch : Str} {symbolServer : Option Str} {inlines : Bool} {w : Cache.World} {info : ObjectInfo}
    (h : (getObjectInfo env buf path filename mapping arch symbolServer inlines w).1 = .ok info) :
    ∃ o fileName pe peName platform m i, fromObject env o fileName pe peName platform m i = .ok info := by
  unfold getObjectInfo at h
  split at h
  · simp only [fromElf] at h
    split at h
    · cases h
    · exact ⟨_, _, _, _, _, _, _, h⟩
  · simp only [getPdbObjectInfo] at h
    split at h
    · cases h
    · rename_i pdb hpdb
      cases hf : WinUtils.findPeForPdb env.net.cab (parsePe env.parsers) w.disk path pdb.debugId with
      | err m => rw [hf] at h; cases h
      | panic => rw [hf] at h; cases h
      | ok r =>
        rw [hf] at h
        simp only [Res.bind_ok] at h
        split at h
        · split at h
          · exact ⟨_, _, _, _, _, _, _, h⟩
          · cases h
        · exact ⟨_, _, _, _, _, _, _, h⟩
  · simp only [] at h
    split at h
    · rename_i info' hi
      cases h
      unfold getPePdbObjectInfo at hi
      split at hi
      · simp only [] at hi
        split at hi
        · split at hi
          · cases hi
          · exact ⟨_, _, _, _, _, _, _, hi⟩
        · cases hi
        · cases hi
        · cases hi
      · cases hi
      · cases hi
    · simp only [getPeObjectInfo] at h
      split at h
      · cases h
      · exact ⟨_, _, _, _, _, _, _, h⟩
    · cases h
  · simp only [fromMacho] at h
    split at h
    · cases h
    · rename_i objects ho
      cases hs : selectObject arch objects with
      | err m => rw [hs] at h; cases h
      | panic => rw [hs] at h; cases h
      | ok r =>
        rw [hs] at h
        simp only [Res.bind_ok] at h
        split at h
        · exact ⟨_, _, _, _, _, _, _, h⟩
        · cases h
  · cases h

/-- **C63, no separator.** The name of a module made from a file of any format has no `/`. -/
theorem C63_no_slash {env : Env} {buf : Bytes} {path filename : Str} {mapping : Option (List Mapping.Generator)}
    {arch : Str} {symbolServer : Option Str} {inlines : Bool} {w : Cache.World} {info : ObjectInfo}
    (h : (getObjectInfo env buf path filename mapping arch symbolServer inlines w).1 = .ok info) : '/' ∉ info.fileName := by
  obtain ⟨o, fileName, pe, peName, platform, m, i, h⟩ := getObjectInfo_fromObject h
  rw [(fromObject_fileName h).1]
  exact fileNameOnly_no_slash _

/-- The same for the module of a run over one file. -/
theorem readSingle_no_slash {env : Env} {config : Config} {path : Str} {w : Cache.World} {o : ObjectInfo}
    (h : (readSingle env config path w).1 = .ok o) : '/' ∉ o.fileName := by
  unfold readSingle at h
  split at h
  · simp only [] at h
    split at h
    · split at h
      · exact C63_no_slash h
      · cases h
      · cases h
    · cases h
    · cases h
  · cases h
  · cases h

/-- **C62, success (partial).** A successful run has made a module of the input, and every destination asked for holds the beginning of
its text, of which at most a buffer is missing.  Missing: the failure to write the last buffer is ignored (C30). -/
theorem C62_success_partial (env : Env) (extra : Option (List Str)) (config : Config) (path : Str) (w : Cache.World)
    (out : Output.World) (h : (singleFile env extra config path w out).1 = .ok ()) :
    ∃ o, (readSingle env config path w).1 = .ok o ∧ (config.checkCfi = true → o.stack ≠ []) ∧
      ∀ t, o.display extra = .ok t → (env.io.chunks t).flatten = Utf8.encode t →
        (∀ p d, config.output = .fileAndStore (.path p) d → ¬ InStore d o.fileName o.debugId p) →
        ∀ fo, Output.Requested config.output o fo →
          Output.Holds out (singleFile env extra config path w out).2.2 fo ((Utf8.encode t).take (env.io.room fo)) ∧
          (Utf8.encode t).length ≤ env.io.room fo + env.io.capacity := by
  unfold singleFile at h ⊢
  simp only [] at h ⊢
  cases ho : (readSingle env config path w).1 with
  | err m => rw [ho] at h; cases h
  | panic => rw [ho] at h; cases h
  | ok o =>
    rw [ho] at h
    simp only [] at h ⊢
    refine ⟨o, rfl, ?_, ?_⟩
    · intro hc hs
      rw [hc, Output.C28_no_cfi env.io extra config.output o out hs] at h
      cases h
    · intro t ht hch hne fo hf
      exact Output.C30_success_partial env.io extra config.output config.checkCfi o out ht hch (readSingle_no_slash ho) hne h hf

/-- **C62, when everything works** every destination asked for receives the complete text and the run succeeds. -/
theorem C62_complete (env : Env) (extra : Option (List Str)) (config : Config) (path : Str) (w : Cache.World) (out : Output.World)
    {o : ObjectInfo} {t : Str} (ho : (readSingle env config path w).1 = .ok o) (hcfi : config.checkCfi = true → o.stack ≠ [])
    (ht : o.display extra = .ok t) (hch : (env.io.chunks t).flatten = Utf8.encode t) (hm : ∀ d, env.io.mkdirs d = true)
    (hc : ∀ p, env.io.create p = true) (hr : ∀ fo, (Utf8.encode t).length ≤ env.io.room fo) :
    (singleFile env extra config path w out).1 = .ok () ∧
      ∀ fo, Output.Requested config.output o fo →
        Output.Holds out (singleFile env extra config path w out).2.2 fo (Utf8.encode t) := by
  obtain ⟨w', h1, h2⟩ := Output.C28_complete env.io extra config.output config.checkCfi o out (readSingle_no_slash ho) hcfi ht hch hm
    (fun p _ => hc p) (fun fo _ => hr fo)
  unfold singleFile
  simp only [ho, h1]
  exact ⟨trivial, h2⟩

/-- **C63, the store (partial).** So the symbol file of a module made from a file lies below the store directory, unless the module
is named `..` (C32). -/
theorem C63_store_partial {env : Env} {buf : Bytes} {path filename : Str} {mapping : Option (List Mapping.Generator)}
    {arch : Str} {symbolServer : Option Str} {inlines : Bool} {w : Cache.World} {info : ObjectInfo}
    (h : (getObjectInfo env buf path filename mapping arch symbolServer inlines w).1 = .ok info) (hid : ProperComp info.debugId)
    (hn : info.fileName ≠ ['.', '.']) (dir : Str) :
    ∃ p, InStore dir info.fileName info.debugId p ∧ Below dir p :=
  ⟨_, (inStore_iff (C63_no_slash h)).mpr rfl, C32_store_contained_partial dir _ _ (C63_no_slash h) hid hn⟩

/-- `last` is the last component of the Windows path `s`: what follows the last separator. -/
def LastComponent (s last : Str) : Prop :=
  '/' ∉ last ∧ '\\' ∉ last ∧ ∃ pre, s = pre ++ last ∧ (pre = [] ∨ pre.getLast? = some '/' ∨ pre.getLast? = some '\\')

theorem winPathFileName_spec (s : Str) :
    '\\' ∉ winPathFileName s ∧ ∃ pre, s = pre ++ winPathFileName s ∧ (pre = [] ∨ pre.getLast? = some '\\') := by
  refine ⟨?_, (s.reverse.dropWhile (· != '\\')).reverse, ?_, ?_⟩
  · unfold winPathFileName
    intro h
    have := List.all_eq_true.mp (List.all_takeWhile (p := (· != '\\')) (l := s.reverse)) _ (List.mem_reverse.mp h)
    simp at this
  · unfold winPathFileName
    rw [← List.reverse_append, List.takeWhile_append_dropWhile, List.reverse_reverse]
  · cases hd : s.reverse.dropWhile (· != '\\') with
    | nil => exact .inl rfl
    | cons c cs =>
      right
      have := List.head?_dropWhile_not (p := (· != '\\')) s.reverse
      rw [hd] at this
      simp only [List.head?_cons] at this
      rw [List.getLast?_reverse]
      simpa using this

/-- **C63, a PE alone.** A module made from a PE alone is named after the last component of the PDB path recorded in the PE, or
after the PE when it records none; its platform is Windows and the PE's own file name goes with the code id. -/
theorem C63_pe_name {env : Env} {peName : Str} {pe : ObjInput} {recorded : Option Str} {info : ObjectInfo}
    (hf : pe.format = .pe) (h : fromPe env peName pe recorded = .ok info) :
    LastComponent (recorded.getD peName) info.fileName ∧ info.platform = .win ∧ info.peName = some peName ∧
      info.debugId = pe.debugId := by
  obtain ⟨h1, h2, h3, _, h5⟩ := fromObject_fileName h
  refine ⟨?_, h2, h5, h3⟩
  have hm : moduleName pe (winPathFileName (recorded.getD peName)) = winPathFileName (recorded.getD peName) := by
    unfold moduleName; simp [hf]
  rw [hm] at h1
  obtain ⟨hb, pre1, e1, l1⟩ := winPathFileName_spec (recorded.getD peName)
  obtain ⟨pre2, e2, l2⟩ := fileNameOnly_suffix (winPathFileName (recorded.getD peName))
  rw [h1]
  refine ⟨fileNameOnly_no_slash _, ?_, pre1 ++ pre2, ?_, ?_⟩
  · intro hx
    apply hb
    rw [e2]; exact List.mem_append_right _ hx
  · rw [List.append_assoc, ← e2]; exact e1
  · rcases l2 with rfl | l2
    · rw [List.append_nil]
      rcases l1 with l1 | l1
      · exact .inl l1
      · exact .inr (.inr l1)
    · refine .inr (.inl ?_)
      rw [List.getLast?_append, l2]; rfl

/-! ## Samples and witnesses -/

def exObj (format : Format) (id arch : Str) (name : Option Str) : ObjInput :=
  { objOf id true (if format = .pe then [] else [mB1]) [] with format, arch, name, kind := .other }

/-- The first byte of a file says what it is, and the second which one of its kind. -/
def exParsers : Parsers where
  peek := fun b => match b with | 1 :: _ => .elf | 2 :: _ => .pdb | 3 :: _ => .pe | 4 :: _ => .machO | _ => .other
  elf := fun b => match b with | [1] => .ok (exObj .elf (str% "E1") (str% "x86_64") (some (str% "dir/lib.so"))) | _ => .error (str% "elf")
  pdb := fun b => match b with | [2] => .ok (exObj .pdb (str% "A1") (str% "x86") none) | _ => .error (str% "pdb")
  pe := fun b => match b with
    | [3] => some (exObj .pe (str% "A1") (str% "x86") none, some (str% "C:\\x/m.pdb"))
    | [3, 1] => some (exObj .pe (str% "A1") (str% "x86") none, some (str% "C:\\x\\.."))
    | _ => none
  archive := fun b => match b with
    | [4, 1] => .ok [some (exObj .machO (str% "D1") (str% "arm64") none)]
    | [4, 0] => .ok [none]
    | [4] => .ok [none, some (exObj .machO (str% "D1") (str% "arm64") none), some (exObj .machO (str% "D2") (str% "x86_64") none),
        some (exObj .machO (str% "D3") (str% "x86_64") none)]
    | _ => .error (str% "macho")
  arch := fun s => if s ∈ [str% "x86", str% "x86_64", str% "arm64"] then some s else none

def exEnv : Env where
  os := .linux
  canon := fun _ => none
  dm := sampleCEnv.dm
  detect := sampleCEnv.detect
  us := sampleCEnv.us
  cwd := str% "/w"
  home := some (str% "/home/u")
  net := WinUtils.noNet
  map := Mapping.sampleEnv
  parsers := exParsers
  io := Output.goodDisk

def exConfig : Config where
  output := .file (.path (str% "out.sym"))
  symbolServer := none
  debugId := none
  codeId := none
  arch := str% "x86_64"
  numJobs := 1
  checkCfi := false
  emitInlines := false
  mappingVar := none
  mappingSrc := none
  mappingDest := none
  mappingFile := none

def exWorld (fs : List (Str × Node)) : Cache.World := { disk := WinUtils.diskOf fs, log := [] }

/-- The fields of a module that tell where it came from. -/
def headOf (r : Res ObjectInfo) : Res (Str × Str × Str × Platform) := r.map fun o => (o.fileName, o.debugId, o.cpu, o.platform)

/-- Two slices of the same architecture: the first readable one is taken. -/
example : headOf (fromMacho exEnv [4] (str% "f") (str% "x86_64") none false) = .ok (str% "f", str% "D2", str% "x86_64", .mac) := by
  decide
example : headOf (fromMacho exEnv [4, 1] (str% "f") (str% "x86_64") none false) = .ok (str% "f", str% "D1", str% "arm64", .mac) := by
  decide
example : headOf (fromMacho exEnv [4] (str% "f") (str% "x86") none false) =
    .err (str% "Cannot find a valid object for architecture x86 in file f") := by decide
/-- A single slice that cannot be read is a panic, not an error. -/
example : fromMacho exEnv [4, 0] (str% "f") (str% "x86") none false = .panic := by decide

/-- The four formats, through `get_object_info`. -/
example : headOf (readSingle exEnv exConfig (str% "/d/a") (exWorld [(str% "/d/a", .file [1] true)])).1 =
    .ok (str% "lib.so", str% "E1", str% "x86_64", .linux) := by decide
example : headOf (readSingle exEnv exConfig (str% "/d/a.pdb") (exWorld [(str% "/d/a.pdb", .file [2] true)])).1 =
    .ok (str% "a.pdb", str% "A1", str% "x86", .win) := by decide
example : headOf (readSingle exEnv exConfig (str% "/d/a.dll") (exWorld [(str% "/d/a.dll", .file [3] true)])).1 =
    .ok (str% "m.pdb", str% "A1", str% "x86", .win) := by decide
example : (readSingle exEnv exConfig (str% "/d/a") (exWorld [(str% "/d/a", .file [9] true)])).1 = .err (str% "Unknown file format") := by
  decide
/-- A PE whose PDB cannot be parsed is dumped alone. -/
example : headOf (readSingle exEnv exConfig (str% "/d/a.dll")
    (exWorld [(str% "/d/a.dll", .file [3] true), (str% "/d/m.pdb", .file [2, 2] true)])).1 =
    .ok (str% "m.pdb", str% "A1", str% "x86", .win) := by decide
/-- An architecture that does not exist. -/
example : (singleFile exEnv none { exConfig with arch := str% "vax" } (str% "/d/a") (exWorld [(str% "/d/a", .file [1] true)])
    Output.emptyWorld).1 = .err (str% "arch") := by decide

/-- **C60 is false**: when the PDB beside the PE cannot be opened, the run panics although the PE can be dumped. -/
theorem C60_panic_witness :
    (readSingle exEnv exConfig (str% "/d/a.dll")
      (exWorld [(str% "/d/a.dll", .file [3] true), (str% "/d/m.pdb", .file [2] false)])).1 = .panic ∧
    headOf (readSingle exEnv exConfig (str% "/d/a.dll") (exWorld [(str% "/d/a.dll", .file [3] true)])).1 =
      .ok (str% "m.pdb", str% "A1", str% "x86", .win) := by decide

/-- **C63, the store**: a PE that says its PDB is `C:\x\..` is stored outside the store directory. -/
theorem C63_escape_witness :
    headOf (readSingle exEnv exConfig (str% "/d/a.dll") (exWorld [(str% "/d/a.dll", .file [3, 1] true)])).1 =
      .ok (str% "..", str% "A1", str% "x86", .win) ∧
    ((singleFile exEnv none { exConfig with output := .store (str% "/store") } (str% "/d/a.dll")
      (exWorld [(str% "/d/a.dll", .file [3, 1] true)]) Output.emptyWorld).2.2.files (str% "/store/../A1/...sym")).isSome = true := by
  refine ⟨by decide, by decide +kernel⟩

/-! ## C65: the symbol server with several files -/

/-- **C65 is false**: with one file, the symbol server named on the command line is used (here its cache has the PDB, with
a function and its lines); with several files it is ignored, as are the ids, and the same PE is dumped alone. -/
theorem C65_ignored_witness :
    (headOf (readSingle exEnv { exConfig with symbolServer := some (str% "srv*/c*http://s") } (str% "/d/a.dll")
      (exWorld [(str% "/d/a.dll", .file [3] true), (str% "/c/m.pdb/A1/m.pdb", .file [2] true)])).1 =
      .ok (str% "m.pdb", str% "A1", str% "x86", .win)) ∧
    ((readSingle exEnv { exConfig with symbolServer := some (str% "srv*/c*http://s") } (str% "/d/a.dll")
      (exWorld [(str% "/d/a.dll", .file [3] true), (str% "/c/m.pdb/A1/m.pdb", .file [2] true)])).1 ≠
     (parseInput exEnv { exConfig with symbolServer := some (str% "srv*/c*http://s") } none (str% "x86_64") (str% "/d/a.dll")
      (exWorld [(str% "/d/a.dll", .file [3] true), (str% "/c/m.pdb/A1/m.pdb", .file [2] true)])).1) := by decide

/-- The input of a multi-file run is the same whatever the symbol server and the ids of the configuration are. -/
theorem C65_ignored (env : Env) (config : Config) (server debugId codeId : Option Str)
    (mapping : Option (List Mapping.Generator)) (arch path : Str) (w : Cache.World) :
    parseInput env { config with symbolServer := server, debugId, codeId } mapping arch path w =
      parseInput env config mapping arch path w := rfl

/-- **C65 (partial).** Without a symbol server and ids on the command line, a file is turned into the same module whether it is
given alone or with others. -/
theorem C65_same_module_partial (env : Env) (config : Config) (path : Str) (w : Cache.World) (h1 : config.symbolServer = none)
    (h2 : config.debugId = none) (h3 : config.codeId = none) {mapping : Option (List Mapping.Generator)} {arch : Str}
    (hp : prepare env config = .ok (mapping, arch)) :
    readSingle env config path w = parseInput env config mapping arch path w := by
  unfold readSingle parseInput
  split
  · rw [getFromId_by_path env config _ _ w h2 h3]
    simp only []
    split
    · simp only [hp, h1]
    · rfl
    · rfl
  · rfl
  · rfl

end Dumper
end DumpSyms
