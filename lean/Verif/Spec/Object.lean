import Verif.Spec.Merge
import Verif.Spec.Inline
import Verif.Spec.Decorated
/-!
# Specification vocabulary: acceptable object files, dumped and merged objects
-/
namespace DumpSyms
open ObjectInfo

/-- The section is the first one that holds embedded debug data. -/
def ObjInput.EmbeddedIn (main : ObjInput) (h : Section) : Prop :=
  ∃ before after, main.kind = .elf (before ++ h :: after) ∧ h.name = some (str% ".gnu_debugdata") ∧
    ∀ x ∈ before, x.name ≠ some (str% ".gnu_debugdata")

/-- Embedded debug data lies within the file. -/
def ObjInput.EmbeddedInside (main : ObjInput) : Prop := ∀ h, main.EmbeddedIn h → h.offset + h.size ≤ main.data.length

/-- The file without the contents of its embedded debug data. -/
def ObjInput.stripEmbedded (main : ObjInput) (ps : List Collector.Public) : ObjInput :=
  { main with publics := main.publics ++ ps, unxz := fun _ => none, data := List.replicate main.data.length 0 }

/-- The public symbols the file has in its embedded debug data: those of the unpacked first `.gnu_debugdata` section, none if there is no
such section, if it cannot be unpacked, or if it does not hold an object file. -/
def ObjInput.Embeds (main : ObjInput) (ps : List Collector.Public) : Prop :=
  (∃ h, main.EmbeddedIn h ∧ ∃ bytes packed, (∃ pre post, main.data = pre ++ packed ++ post ∧ pre.length = h.offset ∧
      packed.length = h.size) ∧ main.unxz packed = some bytes ∧ main.parsePublics bytes = some ps) ∨
  (ps = [] ∧ ∀ h, main.EmbeddedIn h → ∀ pre packed post, main.data = pre ++ packed ++ post → pre.length = h.offset →
      packed.length = h.size → ∀ bytes, main.unxz packed = some bytes → main.parsePublics bytes = none)

/-- What is required of an object file: its debug information can be read and meets `InputOk`; exception entries are 32-bit
values; for Windows, the names of public symbols have an undecorated form (otherwise the parser panics: C42); embedded debug data lies within the
file (C76). -/
structure ObjOk (env : CEnv) (mem : Mem) (U : List Str) (V : List Name) (platform : Platform) (main : ObjInput)
    (fs : List (Option Func)) : Prop where
  functions : main.functions = .ok fs
  input : InputOk env mem U V fs
  exceptions : ∀ es, main.exceptions = some es → ∀ e ∈ es, e.begin < M32 ∧ e.stop < M32
  names : platform = .win → ∀ ps, ps = main.publics ∨ main.Embeds ps → ∀ p ∈ ps, ∀ n, p.name = some n →
    ∃ base size, Undecorated n base size
  embedded : main.EmbeddedInside

/-- The object is the result of dumping some acceptable object file with the path mapping `mapping`. -/
def DumpedUnder (mapping : Str → Option Str) (o : ObjectInfo) : Prop :=
  ∃ env mem U V platform main fs inlines name pe peName, ObjOk env mem U V platform main fs ∧
    env.src.mapping = mapping ∧ fromObject env inlines platform main name pe peName = .ok o

/-- The object is the result of dumping some acceptable object file. -/
def Dumped (o : ObjectInfo) : Prop := ∃ mapping, DumpedUnder mapping o

/-- The merges of a tree are all between dumped objects with debug id `id`, with at most 2^32 FILE and INLINE_ORIGIN
records. -/
structure MTree.Ok (t : MTree) (id : Str) : Prop where
  orders : t.OrdersOk
  dumped : ∀ o ∈ t.leaves, Dumped o
  ids : ∀ o ∈ t.leaves, o.debugId = id
  files : t.fileCount ≤ M32
  origins : t.originCount < M32

/-- `L` is the one of `l` and `r` with more symbols (`r` if they have equally many), `R` is the other. -/
def Larger (l r L R : ObjectInfo) : Prop :=
  (r.symbols.length < l.symbols.length ∧ L = l ∧ R = r) ∨ (l.symbols.length ≤ r.symbols.length ∧ L = r ∧ R = l)

/-- Two symbols agree in everything but the `m` flag and the records. -/
def Symbol.SameHeader (s x : Symbol) : Prop :=
  s.name = x.name ∧ s.isPublic = x.isPublic ∧ s.isSynthetic = x.isSynthetic ∧ s.rva = x.rva ∧ s.len = x.len ∧
    s.parameterSize = x.parameterSize

/-- The records of `s`, read in the object `o`, say the same as those of `x`, read in the object `p`: the same lines in the
same order, and the same INLINE records up to order. -/
def SameRecords (o : ObjectInfo) (s : Symbol) (p : ObjectInfo) (x : Symbol) : Prop :=
  s.readLines o.files.getMapping = x.readLines p.files.getMapping ∧
  (s.readInlines o.files.getMapping o.inlineOrigins).Perm (x.readInlines p.files.getMapping p.inlineOrigins)

/-- The two objects describe the same module: the same header and unwind text, the same FILE paths up to order, the same
INLINE_ORIGIN names, and at every address a symbol that says the same. -/
structure SameModule (o p : ObjectInfo) : Prop where
  fileName : o.fileName = p.fileName
  cpu : o.cpu = p.cpu
  debugId : o.debugId = p.debugId
  codeId : o.codeId = p.codeId
  peName : o.peName = p.peName
  platform : o.platform = p.platform
  binType : o.binType = p.binType
  stack : o.stack = p.stack
  files : o.files.getMapping.Perm p.files.getMapping
  origins : o.inlineOrigins = p.inlineOrigins
  absent : ∀ a, o.symbols.get? a = none ↔ p.symbols.get? a = none
  symbols : ∀ a s x, o.symbols.get? a = some s → p.symbols.get? a = some x →
    s.SameHeader x ∧ s.isMultiple = x.isMultiple ∧ SameRecords o s p x

/-- Merge the objects one after the other into `acc`; each merge has its own hash iteration order. -/
def mergeAll : ObjectInfo → List ((List (Str × Nat) → List (Str × Nat)) × ObjectInfo) → Res ObjectInfo
  | acc, [] => .ok acc
  | acc, (order, o) :: rest => do
    let acc ← ObjectInfo.merge order acc o
    mergeAll acc rest

/-- Objects obtained by merging dumped objects one after the other into an object that has more symbols each time. -/
inductive Accumulated (mapping : Str → Option Str) : ObjectInfo → Prop where
  | dump (o : ObjectInfo) (h : DumpedUnder mapping o) : Accumulated mapping o
  | merge (acc o res : ObjectInfo) (order : List (Str × Nat) → List (Str × Nat)) (ho : IterOrder order)
      (h : Accumulated mapping acc) (hd : DumpedUnder mapping o) (hsize : o.symbols.length < acc.symbols.length)
      (hf : acc.files.getMapping.length + o.files.getMapping.length ≤ M32)
      (hor : acc.inlineOrigins.length + o.inlineOrigins.length < M32)
      (hm : ObjectInfo.merge order acc o = .ok res) : Accumulated mapping res

end DumpSyms
