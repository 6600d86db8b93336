import Verif.Props.Display
import Verif.Props.Inputs
import Verif.Proof.SourcePath
/-!
# C72, C73: the paths of source files, and what identifies a module
-/
namespace DumpSyms

/-! ## C72: source paths -/

/-- **C72 (partial).** The path recorded for a reference to a source file (before the path mapping) is that of the name in its directory, in
the compilation directory.  If the object was made for the machine dump_syms runs on, and is not a PE with its own debug
information, it is the real path on that machine, or, where there is none, the path with `.` and `..` resolved lexically.  Missing:
names that are absolute themselves, which are put below the directory (`C72_absolute_name_witness`), and for Windows names without
directory, which are not put below the compilation directory (`C72_no_directory_witness`). -/
theorem C72_source_path_partial (env : Dumper.Env) (platform : Platform) (mapping : Option (List Mapping.Generator)) (o : ObjInput)
    (comp : ByteSlice) (file : FileInfo) :
    RecordedPath platform (OnHost env.os platform ∧ ¬ (o.format = .pe ∧ o.hasDebugInfo = true)) env.canon comp file
      (SourceFiles.getPath (Dumper.cenv env platform mapping o).src comp file) := by
  have hhost : platform.isTarget env.os = true ↔ OnHost env.os platform := by
    cases env.os <;> cases platform <;> simp [Platform.isTarget, OnHost]
  have hcan : (Dumper.cenv env platform mapping o).src.canonicalize = true ↔
      OnHost env.os platform ∧ ¬ (o.format = .pe ∧ o.hasDebugInfo = true) := by
    simp only [Dumper.cenv, ObjectInfo.canonicalize]
    split
    · rename_i h; simp [h]
    · rename_i h; rw [hhost]; exact ⟨fun x => ⟨x, h⟩, fun x => x.1⟩
  have h := recordedPath_getPath (Dumper.cenv env platform mapping o).src comp file
  rw [hcan] at h
  exact h

/-- A reference to a file. -/
def refTo (dir name : String) : FileInfo := { dirRef := (1, dir.length), dir := dir.toList, nameRef := (2, name.length), name := name.toList }
def compDir (s : String) : ByteSlice := { ref := (3, s.length), bytes := s.toUTF8.toList }

/-- **C72 is false for absolute names.** A reference without directory to `/usr/x.c`, compiled in `/c`, is recorded as `/c/usr/x.c`. -/
theorem C72_absolute_name_witness : IsAbsolute .linux (str% "/usr/x.c") ∧
    SourceFiles.getPath { platform := .linux, canonicalize := false, canon := fun _ => none, mapping := fun _ => none }
      (compDir "/c") (refTo "" "/usr/x.c") = str% "/c/usr/x.c" :=
  ⟨⟨_, rfl⟩, by decide +kernel⟩

/-- **C72 is false for a Windows file without directory.** `x.c` compiled in `C:\\b` is recorded as `\\x.c`. -/
theorem C72_no_directory_witness :
    SourceFiles.getPath { platform := .win, canonicalize := false, canon := fun _ => none, mapping := fun _ => none }
      (compDir "C:\\b") (refTo "" "x.c") = str% "\\x.c" := by decide +kernel

/-- A relative directory on the host: resolved lexically as no file is there. -/
example : SourceFiles.getPath (Dumper.cenv Dumper.exEnv .linux none (Dumper.exObj .elf [] [] none)).src
    (compDir "/build/a") (refTo "../src" "x.c") = str% "/build/src/x.c" := by decide +kernel
/-- Paths of another platform are left alone. -/
example : SourceFiles.getPath (Dumper.cenv Dumper.exEnv .win none (Dumper.exObj .pdb [] [] none)).src
    (compDir "C:\\b") (refTo "..\\src" "x.c") = str% "C:\\b\\..\\src\\x.c" := by decide +kernel
/-- The compilation directory in Latin-1. -/
example : SourceFiles.getPath (Dumper.cenv Dumper.exEnv .mac none (Dumper.exObj .machO [] [] none)).src
    { ref := (3, 2), bytes := [47, 0xe9] } (refTo "d" "x.c") = str% "/é/d/x.c" := by decide +kernel

/-! ## C73: identification -/

namespace Dumper
open Reader ObjectInfo

theorem fromObject_codeId {env : Env} {o : ObjInput} {fileName : Str} {pe : Option ObjInput} {peName : Option Str}
    {platform : Platform} {mapping : Option (List Mapping.Generator)} {inlines : Bool} {info : ObjectInfo}
    (h : fromObject env o fileName pe peName platform mapping inlines = .ok info) :
    info.codeId = ((pe.bind (·.codeId)).or o.codeId).map (fun c => c.map asciiUpper) ∧ info.stack = getStackInfo o pe := by
  unfold fromObject ObjectInfo.fromObject at h
  split at h
  · cases h
  · rename_i fs hfs
    cases hc : collect (cenv env platform mapping o) inlines platform o fileName peName fs with
    | err m => rw [hc] at h; cases h
    | panic => rw [hc] at h; cases h
    | ok st =>
      rw [hc] at h
      simp only [Res.bind_ok, Res.ok.injEq] at h
      subst h
      exact ⟨rfl, rfl⟩

theorem asciiUpper_eq (c : Char) : asciiUpper c = c.toUpper := by
  unfold asciiUpper Char.toUpper
  have h1 : ('a' ≤ c ∧ c ≤ 'z') ↔ (c.val ≥ 'a'.val ∧ c.val ≤ 'z'.val) := Iff.rfl
  split
  · rename_i h
    have h' := h1.mp h
    rw [dif_pos h']
    have ha : 97 ≤ c.val.toNat := h'.1
    have hz : c.val.toNat ≤ 122 := h'.2
    apply Char.ext
    apply UInt32.toNat_inj.mp
    have hv : (c.toNat - 32).isValidChar := by left; show c.val.toNat - 32 < 55296; omega
    rw [show (Char.ofNat (c.toNat - 32)).val.toNat = c.toNat - 32 by
      unfold Char.ofNat; rw [dif_pos hv]; rfl]
    show c.val.toNat - 32 = (c.val + ('A'.val - 'a'.val)).toNat
    rw [UInt32.toNat_add]
    have : ('A'.val - 'a'.val).toNat = 4294967264 := by decide
    rw [this]
    omega
  · rename_i h
    rw [dif_neg (fun x => h (h1.mpr x))]

/-- The name a module gets: ELF and Mach-O objects may have one of their own. -/
def givenName (o : ObjInput) (name : Str) : Str :=
  match o.format, o.name with
  | .elf, some n | .machO, some n => n
  | _, _ => name

/-- **C73.** The printed symbol file of a module made from a file identifies it: the MODULE record has the platform of the format, the
architecture and the debug id of the object with the debug information, and the last part of the name; the code id is that of the PE if
it has one and of the object otherwise, in capitals, with the name of the PE; the STACK records are those of the PE if it has any, and
of the object otherwise. -/
theorem C73_identification (env : Env) (buf : Bytes) (pre filename : Str) (mapping : Option (List Mapping.Generator)) (arch : Str)
    (symbolServer : Option Str) (inlines : Bool) (w w' : Cache.World) (info : ObjectInfo)
    (hp : DirPart pre) (hn : ProperComp filename) (hsane : Sane env w.disk) (hpe : SanePe env buf)
    (h : getObjectInfo env buf (pre ++ filename) filename mapping arch symbolServer inlines w = (.ok info, w'))
    (hok : ∀ o name pe peName platform opts w', DumpedFrom env buf (pre ++ filename) filename arch symbolServer w o name pe peName platform opts w' →
      ∃ mem U V fs, ObjOk (cenv env platform (if opts then mapping else none) o) mem U V platform o fs)
    (extra : Option (List Str)) (hr : info.Readable (extra.getD [])) :
    ∃ o name pe peName platform opts text f last,
      DumpedFrom env buf (pre ++ filename) filename arch symbolServer w o name pe peName platform opts w' ∧ info.display extra = .ok text ∧ readSymFile text = some f ∧
      f.modules = [(osName platform, o.arch, o.debugId, last)] ∧ AfterLast '/' (givenName o name) last ∧
      f.codeId = ((pe.bind (·.codeId)).or o.codeId).map (fun c => (c.map Char.toUpper, peName)) ∧
      f.stack.flatMap (fun l => str% "STACK " ++ l ++ str% "\n") = ((pe.bind (·.unwind)).or o.unwind).getD [] := by
  obtain ⟨o, name, pe, peName, platform, opts, hd, hf⟩ := C81_sound env arch symbolServer hp hn hsane hpe mapping inlines h
  obtain ⟨mem, U, V, fs, ho⟩ := hok o name pe peName platform opts w' hd
  obtain ⟨info', _, _, _, g1, g2, _⟩ := fromObject_spec ho (inlines && opts) name pe peName
  have hinfo : info' = info := by
    have : (Res.ok info' : Res ObjectInfo) = .ok info := by rw [← g1]; exact hf
    cases this; rfl
  subst hinfo
  obtain ⟨text, f, a1, a2, a3, a4, _, _, _, _, a9⟩ := read_display hr (fun e he =>
    (g2.inlines _ _ (SMap.get?_of_mem g2.sorted he)).2)
  obtain ⟨k1, k2, k3, k4, k5⟩ := fromObject_fileName hf
  obtain ⟨k6, k7⟩ := fromObject_codeId hf
  have hname : moduleName o name = givenName o name := by
    unfold moduleName givenName
    cases o.format <;> cases o.name <;> simp
  refine ⟨o, name, pe, peName, platform, opts, text, f, info'.fileName, hd, a1, a2, ?_, ?_, ?_, ?_⟩
  · rw [a3, k2, k3, k4]
    cases platform <;> rfl
  · rw [k1, ← hname]
    exact ⟨fileNameOnly_no_slash _, fileNameOnly_suffix _⟩
  · rw [a4, k6, k5, Option.map_map]
    have : asciiUpper = Char.toUpper := funext asciiUpper_eq
    rw [this]
    rfl
  · rw [← a9, k7]
    unfold getStackInfo
    cases pe.bind (·.unwind) <;> rfl

theorem exElf_ok (o : ObjInput)
    (h : o = exObj .elf (str% "E1") (str% "x86_64") (some (str% "dir/lib.so"))) :
    ObjOk (cenv exEnv .linux none o) sampleMem sampleU sampleV .linux o [some mB1] := by
  subst h
  have href : RefOk (cenv exEnv .linux none (exObj .elf (str% "E1") (str% "x86_64") (some (str% "dir/lib.so")))).src sampleMem sampleU
      sampleComp sampleFile3 := by
    exact refOk_iff.mpr ⟨(sampleRef (f := sampleFile3) (by simp)).1, by decide +kernel, rfl⟩
  refine ⟨rfl, ⟨by decide, by decide, sampleSort, ?_⟩, (by intro es h; cases h), (fun h => by cases h),
    embeddedInside_of_kind (by intro l h; cases h <;> rfl)⟩
  intro f hf
  simp only [List.mem_cons, Option.some.injEq, List.not_mem_nil, or_false] at hf
  subst hf
  exact .mk _ (fun l hl => by
    simp only [Func.lines, mB1, List.mem_cons, List.not_mem_nil, or_false] at hl
    subst hl; exact href) (fun g hg => by cases hg) (fun g hg => by cases hg)

theorem exSane {env : Env} (h1 : env.net = WinUtils.noNet) (h2 : env.cwd = str% "/w") : Sane env (exWorld []).disk where
  dirs := fun q es h => by cases h
  room := fun u st raw p h => by rw [h1] at h; cases h
  arrivals := fun js j h => by rw [h1] at h; cases h
  cwd := by rw [h2]; exact .inr ⟨str% "/", str% "w", rfl, .inr rfl, by unfold ProperComp; decide⟩

/-- C73 applied: an ELF file with a name of its own. -/
example : ∃ text f, (∃ info, getObjectInfo exEnv [1] (str% "/d/" ++ str% "a") (str% "a") none (str% "x86_64") none false (exWorld []) =
      (.ok info, exWorld []) ∧ info.display none = .ok text) ∧ readSymFile text = some f ∧
    f.modules = [(str% "Linux", str% "x86_64", str% "E1", str% "lib.so")] := by
  obtain ⟨info, hi⟩ : ∃ info, getObjectInfo exEnv [1] (str% "/d/" ++ str% "a") (str% "a") none (str% "x86_64") none false (exWorld []) =
      (.ok info, exWorld []) := ⟨_, rfl⟩
  have hfrom : ∀ o name pe peName platform opts w', DumpedFrom exEnv [1] (str% "/d/" ++ str% "a") (str% "a") (str% "x86_64") none (exWorld [])
      o name pe peName platform opts w' →
      o = exObj .elf (str% "E1") (str% "x86_64") (some (str% "dir/lib.so")) ∧ platform = .linux := by
    intro o name pe peName platform opts w' h
    cases h with
    | elf hk h => cases h; exact ⟨rfl, rfl⟩
    | machoOnly hk => cases hk
    | machoOf _ _ hk => cases hk
    | pdb hk => cases hk
    | pdbPe _ _ _ _ hk => cases hk
    | pePdb _ _ _ _ _ _ _ hk => cases hk
    | pe _ _ _ _ _ hk => cases hk
  obtain ⟨o, name, pe, peName, platform, opts, text, f, last, h1, h2, h3, h4, h5, _⟩ := C73_identification exEnv [1] (str% "/d/") (str% "a") none
    (str% "x86_64") none false (exWorld []) (exWorld []) info (.inr rfl) (by unfold ProperComp; decide) (exSane rfl rfl)
    (fun pe rec h => by cases h) hi (by
      intro o name pe peName platform opts w' h
      obtain ⟨rfl, rfl⟩ := hfrom _ _ _ _ _ _ _ h
      rw [ite_self]
      exact ⟨_, _, _, _, exElf_ok _ rfl⟩) none (by
      cases hi
      refine ⟨by decide +kernel, by decide +kernel, by decide +kernel, by decide +kernel, by decide +kernel, by decide +kernel, ?_, ?_, ?_, ?_, ?_⟩
      · intro c hc; cases hc
      · intro c hc; cases hc
      · simp
      · simp
      · exact ⟨[str% "CFI 1"], by decide +kernel, by decide +kernel⟩)
  refine ⟨text, f, ⟨info, hi, h2⟩, h3, ?_⟩
  obtain ⟨e1, rfl⟩ := hfrom _ _ _ _ _ _ _ h1
  subst e1
  rw [h4]
  rw [h5.unique (⟨by decide, str% "dir/", rfl, .inr rfl⟩ : AfterLast '/' _ (str% "lib.so"))]
  rfl

/-! ## C74: inline information and path mappings for every format -/

/-- **C74 (partial).** The module of a file is made with the inline option and the path mappings given.  Missing: a PE for which no
usable PDB is found, even if it has debug information of its own (`C74_mingw_witness`). -/
theorem C74_options_partial (env : Env) (buf : Bytes) (pre filename : Str) (mapping : Option (List Mapping.Generator)) (arch : Str)
    (symbolServer : Option Str) (inlines : Bool) (w w' : Cache.World) (info : ObjectInfo)
    (hp : DirPart pre) (hn : ProperComp filename) (hsane : Sane env w.disk) (hpe : SanePe env buf)
    (h : getObjectInfo env buf (pre ++ filename) filename mapping arch symbolServer inlines w = (.ok info, w')) :
    (∃ o name pe peName platform, DumpedFrom env buf (pre ++ filename) filename arch symbolServer w o name pe peName platform true w' ∧
      ObjectInfo.fromObject (cenv env platform mapping o) inlines platform o name pe peName = .ok info) ∨
    (∃ o name, DumpedFrom env buf (pre ++ filename) filename arch symbolServer w o name none (some filename) .win false w' ∧
      ObjectInfo.fromObject (cenv env .win none o) false .win o name none (some filename) = .ok info) := by
  obtain ⟨o, name, pe, peName, platform, opts, hd, hf⟩ := C81_sound env arch symbolServer hp hn hsane hpe mapping inlines h
  cases opts with
  | true =>
    rw [Bool.and_true] at hf
    exact .inl ⟨o, name, pe, peName, platform, hd, hf⟩
  | false =>
    rw [Bool.and_false] at hf
    have : pe = none ∧ peName = some filename ∧ platform = .win := by
      cases hd
      exact ⟨rfl, rfl, rfl⟩
    obtain ⟨rfl, rfl, rfl⟩ := this
    exact .inr ⟨o, name, hd, hf⟩

/-- A PE made by MinGW, with debug information: a function with an inlined call.  No PDB is recorded. -/
def mingwPe : ObjInput := { exObj .pe (str% "A1") (str% "x86") none with functions := .ok [some mA1], hasDebugInfo := true }
def mingwEnv : Env := { exEnv with parsers := { exParsers with pe := fun _ => some (mingwPe, none) } }

/-- **C74 is false**: inline information is asked for, the debug information of the PE has inlined calls, and the module has none. -/
theorem C74_mingw_witness : ∃ info,
    (getObjectInfo mingwEnv [3] (str% "/d/a.exe") (str% "a.exe") none (str% "x86") none true (exWorld [])).1 = .ok info ∧
    info.symbols ≠ [] ∧ (∀ e ∈ info.symbols, e.2.source.inlines = []) ∧ info.inlineOrigins = [] ∧
    ∃ info', ObjectInfo.fromObject (cenv mingwEnv .win none mingwPe) true .win mingwPe (str% "a.exe") none (some (str% "a.exe")) = .ok info' ∧
      info'.inlineOrigins ≠ [] :=
  ⟨_, rfl, by decide +kernel, by decide +kernel, by decide +kernel, _, rfl, by decide +kernel⟩

/-- An ELF file is dumped with the options given. -/
example : ∃ info, (getObjectInfo exEnv [1] (str% "/d/a") (str% "a") none (str% "x86_64") none true (exWorld [])).1 = .ok info := ⟨_, rfl⟩

end Dumper

end DumpSyms
