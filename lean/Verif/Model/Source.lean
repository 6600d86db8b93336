import Verif.Model.Platform
import Verif.Model.Utils
import Verif.Model.WinHost
/-!
# Model of src/source.rs

A slice of the debug file is represented by its `SliceRef` (pointer and length) and its text.  The file system
(`fs::canonicalize`) and the path mapping are parameters.  Simplifications: paths are Unicode strings, so
`to_string_lossy` is the identity; the file system does not change during a dump; `dir_str()`/`name_str()` of the
`symbolic` crate are given as text (they are not modelled).
-/
namespace DumpSyms

/-- src/source.rs:17 `SliceRef`: pointer and length. -/
abbrev SliceRef := Nat × Nat

/-- A byte slice of the debug file (`Function::compilation_dir`). -/
structure ByteSlice where
  ref : SliceRef
  bytes : List UInt8
  deriving DecidableEq, Repr

/-- `symbolic::debuginfo::FileInfo`, seen through `dir_str()` and `name_str()`. -/
structure FileInfo where
  dirRef : SliceRef
  dir : Str
  nameRef : SliceRef
  name : Str
  deriving DecidableEq, Repr

/-- The surroundings of a `SourceFiles`: its constant fields (src/source.rs:21,22,27) and the file system.
`canon` is `fs::canonicalize(..).ok()`.  `mapping` is `mapping.map(..)` with no mapping and mapping errors both given as
`none` (src/source.rs:112-122 treats them alike).  `mapPanics` says that `mapping.map(..)` panics for the path, as it does
when the digest of a file that cannot be opened is asked for (src/utils.rs:207-212). -/
structure SrcEnv where
  platform : Platform
  canonicalize : Bool
  canon : Str → Option Str
  mapping : Str → Option Str
  mapPanics : Str → Bool := fun _ => false

/-- The key of the pointer cache (src/source.rs:26). -/
abbrev CacheKey := SliceRef × SliceRef × SliceRef

/-- src/source.rs:19-28 `struct SourceFiles` (the fields that change).  Hash maps are association lists. -/
structure SourceFiles where
  refToId : List (Str × Nat)
  fakeIdToRef : List (Option Nat × Str)
  idToRef : List Str
  cache : List (CacheKey × Nat)
  deriving DecidableEq, Repr

/-- src/source.rs:30-34 `struct SourceMap`. -/
structure SourceMap where
  refToId : List (Str × Nat)
  idToRef : List Str
  deriving DecidableEq, Repr

namespace SourceFiles

/-- src/source.rs:37-51 `SourceFiles::new`. -/
def new : SourceFiles := { refToId := [], fakeIdToRef := [], idToRef := [], cache := [] }

/-- src/source.rs:59-66 `SourceFiles::path_to_string`. -/
def pathToString (name : List UInt8) : Str :=
  match String.fromUTF8? name.toByteArray with
  | some s => s.toList
  | none => name.map fun b => Char.ofNat b.toNat

/-- `utils::normalize_path` in src/source.rs:68-92, which is reached only for files of the platform the program runs on
(`SourceFiles::canonicalize`, src/object_info.rs:185-196): the paths are those of that platform. -/
def normalizeHere (platform : Platform) (path : Str) : Str :=
  if platform = .win then WinHost.normalizePath path else Utils.normalizePath path

/-- src/source.rs:68-92 `SourceFiles::get_path`. -/
def getPath (env : SrcEnv) (compDir : ByteSlice) (file : FileInfo) : Str :=
  let dir := if !env.platform.isAbsolutePath file.dir && !compDir.bytes.isEmpty then
      env.platform.joinPaths (pathToString compDir.bytes) file.dir
    else file.dir
  let path := env.platform.joinPaths dir file.name
  if env.canonicalize then (env.canon path).getD (normalizeHere env.platform path) else path

/-- src/source.rs:98-102: the cache key. -/
def cacheKey (compDir : ByteSlice) (file : FileInfo) : CacheKey := (compDir.ref, file.dirRef, file.nameRef)

/-- src/source.rs:107-128: the id of a path. -/
def getIdOfPath (env : SrcEnv) (s : SourceFiles) (path : Str) : Res (Nat × SourceFiles) :=
  match s.refToId.lookup path with
  | some id => .ok (id, s)
  | none =>
    let id := u32 s.fakeIdToRef.length
    if env.mapPanics path then .panic
    else .ok (id, { s with
      refToId := (path, id) :: s.refToId
      fakeIdToRef := s.fakeIdToRef ++ [(none, (env.mapping path).getD path)] })

/-- src/source.rs:95-133 `SourceFiles::get_id`. -/
def getId (env : SrcEnv) (s : SourceFiles) (compDir : ByteSlice) (file : FileInfo) : Res (Nat × SourceFiles) :=
  match s.cache.lookup (cacheKey compDir file) with
  | some id => .ok (id, s)
  | none => do
    let (id, s) ← getIdOfPath env s (getPath env compDir file)
    .ok (id, { s with cache := (cacheKey compDir file, id) :: s.cache })

/-- src/source.rs:137-147 `SourceFiles::get_true_id` (an index out of range panics). -/
def getTrueId (s : SourceFiles) (fakeId : Nat) : Res (Nat × SourceFiles) :=
  match s.fakeIdToRef[fakeId]? with
  | none => .panic
  | some (some id, _) => .ok (id, s)
  | some (none, name) =>
    let trueId := u32 s.idToRef.length
    .ok (trueId, { s with
      fakeIdToRef := s.fakeIdToRef.set fakeId (some trueId, name)
      idToRef := s.idToRef ++ [name] })

/-- src/source.rs:149-154 `SourceFiles::get_mapping`. -/
def getMapping (s : SourceFiles) : SourceMap := { refToId := s.refToId, idToRef := s.idToRef }

end SourceFiles

namespace SourceMap

/-- src/source.rs:158-160 `SourceMap::get_mapping`. -/
def getMapping (s : SourceMap) : List Str := s.idToRef

/-- src/source.rs:180-190: the loop over `other.ref_to_id`, whose iteration order is the order of the first list.
`remapping[id]` and `other.id_to_ref[id]` panic when out of range. -/
def mergeLoop (selfRef : List (Str × Nat)) (otherIds : List Str) :
    List (Str × Nat) → List Nat → List Str → Res (List Nat × List Str)
  | [], remap, ids => .ok (remap, ids)
  | (path, id) :: rest, remap, ids =>
    if id < remap.length then
      match selfRef.lookup path with
      | some anId => mergeLoop selfRef otherIds rest (remap.set id anId) ids
      | none =>
        match otherIds[id]? with
        | none => .panic
        | some p => mergeLoop selfRef otherIds rest (remap.set id (u32 ids.length)) (ids ++ [p])
    else .panic

/-- src/source.rs:162-193 `SourceMap::merge`.  `order` is the order in which the hash table of `other` is iterated.
The result is the new `self` and the remapping of `other`'s ids (`none`: ids unchanged). -/
def merge (order : List (Str × Nat) → List (Str × Nat)) (self other : SourceMap) :
    Res (SourceMap × Option (List Nat)) :=
  if other.idToRef = [] then .ok (self, none)
  else if self.idToRef = [] then .ok (other, none)
  else do
    let (remap, ids) ← mergeLoop self.refToId other.idToRef (order other.refToId)
      (List.replicate other.idToRef.length 0) self.idToRef
    .ok ({ self with idToRef := ids }, some remap)

end SourceMap
end DumpSyms
