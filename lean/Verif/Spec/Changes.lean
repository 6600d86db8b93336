import Verif.Spec.Object
/-!
# What two dumps of one file can differ in
-/
namespace DumpSyms

/-- The symbol without its line and INLINE records. -/
def Symbol.bare (s : Symbol) : Symbol := { s with source := Lines.default }

/-- The symbols without their line and INLINE records. -/
def Symbols.bare (m : Symbols) : Symbols := m.map fun e => (e.1, e.2.bare)

/-- The modules agree in the MODULE, INFO CODE_ID and STACK records, and in the FUNC and PUBLIC records themselves; they may differ in what is listed
under the FUNC records and in the FILE and INLINE_ORIGIN records these refer to. -/
structure ObjectInfo.SameButRecords (o p : ObjectInfo) : Prop where
  symbols : o.symbols.bare = p.symbols.bare
  fileName : o.fileName = p.fileName
  cpu : o.cpu = p.cpu
  debugId : o.debugId = p.debugId
  codeId : o.codeId = p.codeId
  peName : o.peName = p.peName
  stack : o.stack = p.stack
  binType : o.binType = p.binType
  platform : o.platform = p.platform

/-- The modules agree in everything but the texts of the FILE records; those with the same number are made of the same path, by `f` and by `g`. -/
structure ObjectInfo.SameButPaths (f g : Str → Str → Prop) (o p : ObjectInfo) : Prop where
  rest : o.SameButRecords p
  symbols : o.symbols = p.symbols
  inlineOrigins : o.inlineOrigins = p.inlineOrigins
  files : ∃ t : List (Str × Str × Str), (∀ e ∈ t, f e.1 e.2.1 ∧ g e.1 e.2.2) ∧
    o.files.getMapping = t.map (·.2.1) ∧ p.files.getMapping = t.map (·.2.2)

end DumpSyms
