import Verif.Spec.Search
import Verif.Spec.Cache
import Verif.Model.WinUtils
/-!
# Which PDB goes with a PE, and which PE with a PDB

Of the model only the description of the surroundings is used.
-/
namespace DumpSyms

/-- A file name without its extension. -/
inductive BaseName : Str → Str → Prop
  | ext (stem e : Str) : stem ≠ [] → '.' ∉ e → BaseName (stem ++ '.' :: e) stem
  | bare (name : Str) : (∀ stem e, name = stem ++ '.' :: e → '.' ∉ e → stem = []) → BaseName name name

/-- What separates two components of a path. -/
inductive Gap : Str → Prop
  | one : Gap ['/']
  | slash (s : Str) : Gap s → Gap ('/' :: s)
  | dot (s : Str) : Gap s → Gap ('/' :: '.' :: s)

/-- The directory of a path, as what is put before the name of another file there. -/
inductive DirOf (path : Str) : Str → Prop
  | bare : ProperComp path → DirOf path []
  | root (gap c : Str) : path = gap ++ c → Gap gap → ProperComp c → DirOf path ['/']
  | inDir (dir gap c : Str) : path = dir ++ gap ++ c → dir ≠ [] → dir.getLast? ≠ some '/' → ¬ ['/', '.'] <:+ dir → Gap gap →
      ProperComp c → DirOf path (dir ++ ['/'])
  | self : Path.fileName path = none → path = [] ∨ path.getLast? = some '/' → DirOf path path
  | below : Path.fileName path = none → path ≠ [] → path.getLast? ≠ some '/' → DirOf path (path ++ ['/'])

/-- A path that names a file, or has no last component to be a name. -/
def Usable (path : Str) : Prop := Path.fileName path = none ∨ ∃ pre c, path = pre ++ c ∧ DirPart pre ∧ ProperComp c

/-- A file is at the path. -/
def IsFile (d : Disk) (p : Str) : Prop := ∃ raw r, d p = some (.file raw r)

namespace WinUtils

/-- The path recorded in a PE, with its backslashes turned. -/
def slashes (s : Str) : Str := s.map (fun c => if c = '\\' then '/' else c)

/-! ### The PE of a PDB -/

/-- Where a PE is looked for: the extension of the file, and the extension it is reported under. -/
def peExts : List (Str × Str) :=
  [(str% "dll", str% "dll"), (str% "dl_", str% "dll"), (str% "exe", str% "exe"), (str% "ex_", str% "exe")]

/-- The file at `p` holds (after decompression) the bytes `buf`, which are a PE with the debug id `id`. -/
def IsPe (cab : Cab) (parse : ParsePe) (d : Disk) (id p : Str) (buf : Bytes) : Prop :=
  IsFile d p ∧ PathHolds cab d p buf ∧ ∃ pe, parse buf = some pe ∧ pe.debugId = id

/-- There is no file at `p`, or it holds something else than a PE with the debug id `id`. -/
def NoPe (cab : Cab) (parse : ParsePe) (d : Disk) (id p : Str) : Prop :=
  ¬ IsFile d p ∨ ∃ buf, PathHolds cab d p buf ∧ ∀ pe, parse buf = some pe → pe.debugId ≠ id

/-- The PE (its name and contents) that goes with a PDB at `path` with the debug id `id`. -/
inductive PeFor (cab : Cab) (parse : ParsePe) (d : Disk) (path id : Str) : Option (Str × Bytes) → Prop
  | found (pre name stem : Str) (before : List (Str × Str)) (ext rep : Str) (after : List (Str × Str)) (buf : Bytes) :
      path = pre ++ name → DirPart pre → ProperComp name → BaseName name stem → peExts = before ++ (ext, rep) :: after →
      (∀ e ∈ before, NoPe cab parse d id (pre ++ (stem ++ '.' :: e.1))) → IsPe cab parse d id (pre ++ (stem ++ '.' :: ext)) buf →
      PeFor cab parse d path id (some (stem ++ '.' :: rep, buf))
  | none (pre name stem : Str) : path = pre ++ name → DirPart pre → ProperComp name → BaseName name stem →
      (∀ e ∈ peExts, NoPe cab parse d id (pre ++ (stem ++ '.' :: e.1))) → PeFor cab parse d path id none

/-! ### The PDB of a PE -/

/-- The places where the PDB of a PE at `path` is looked for: the recorded path, the file of that name beside the PE, its compressed
form there, and the file of that name beside the current directory. -/
inductive Places (cwd path recorded name : Str) : List Str → Prop
  | mk (dir cdir stem : Str) : DirOf path dir → DirOf cwd cdir → BaseName name stem →
      Places cwd path recorded name [recorded, dir ++ name, dir ++ (stem ++ str% ".pd_"), cdir ++ name]

/-- The PDB (its contents and name) that goes with a PE at `path` with the debug id `id` and the given recorded path, and the state after
looking for it. -/
inductive PdbFor (net : Cache.Net) (cwd path id : Str) (servers : Option (List Cache.Server)) (w : Cache.World) :
    Option Str → Option (Bytes × Str) → Cache.World → Prop
  | unnamed : PdbFor net cwd path id servers w none none w
  | noFile (r : Str) : Path.fileName (slashes r) = none → PdbFor net cwd path id servers w (some r) none w
  | onDisk (r name : Str) (ps before : List Str) (p : Str) (after : List Str) (b : Bytes) :
      Path.fileName (slashes r) = some name → Places cwd path (slashes r) name ps → ps = before ++ p :: after →
      (∀ q ∈ before, ¬ IsFile w.disk q) → IsFile w.disk p → PathHolds net.cab w.disk p b →
      PdbFor net cwd path id servers w (some r) (some (b, name)) w
  | searched (r name : Str) (ps : List Str) (x : Option Bytes) (w' : Cache.World) :
      Path.fileName (slashes r) = some name → Places cwd path (slashes r) name ps → (∀ q ∈ ps, ¬ IsFile w.disk q) →
      Cache.Search net name id servers w x w' → PdbFor net cwd path id servers w (some r) (x.map (·, name)) w'

end WinUtils

namespace Cache

/-- The servers a symbol path names. -/
inductive ServersIn (home : Option Str) (s : Str) : Option (List Server) → Prop
  | some (es : List Str) (l : List Server) : l ≠ [] → Fields (fun c => c = ';' ∨ c = '\n') s es →
      Entries home es (l.map fun v => (v.cache, v.server)) → ServersIn home s (some l)
  | none (es : List Str) : Fields (fun c => c = ';' ∨ c = '\n') s es → Entries home es [] → ServersIn home s none

/-- The servers of a run: those of the symbol path given, or else of the configuration file. -/
inductive Configured (home : Option Str) (d : Disk) : Option Str → Option (List Server) → Prop
  | given (s : Str) (l : Option (List Server)) : ServersIn home s l → Configured home d (some s) l
  | noHome : home = none → Configured home d none none
  | noConfig (h : Str) : home = some h → d (Inside (Inside h (str% ".dump_syms")) (str% "config")) = none → Configured home d none none
  | config (h : Str) (raw : Bytes) (s : Str) (l : Option (List Server)) : home = some h →
      d (Inside (Inside h (str% ".dump_syms")) (str% "config")) = some (.file raw true) → Utf8.decode raw = some s →
      ServersIn home s l → Configured home d none l

end Cache
end DumpSyms
