import Verif.Spec.Plain
import Verif.Spec.Frames
import Verif.Spec.Inputs
/-!
# What the symbol file of a dump says
-/
namespace DumpSyms
open Collector Reader

/-- What a dump is made from. -/
structure DumpSource where
  env : CEnv
  platform : Platform
  /-- The object with the debug information, its functions, and its public symbols (with embedded ones). -/
  main : ObjInput
  fs : List (Option Func)
  publics : List Public
  name : Str
  pe : Option ObjInput
  peName : Option Str
  inlines : Bool
  /-- The path printed for a reference to a source file. -/
  prints : ByteSlice → FileInfo → Str → Prop

namespace DumpSource

/-- The name a module gets: ELF and Mach-O objects may have one of their own. -/
def givenName (d : DumpSource) : Str :=
  match d.main.format, d.main.name with
  | .elf, some n | .machO, some n => n
  | _, _ => d.name

/-- The texts printed for the references of the functions to files, and for the names of inlined functions. -/
structure Texts (d : DumpSource) (path : ByteSlice → FileInfo → Str) (nameOf : Name → Str) : Prop where
  path : ∀ f, some f ∈ d.fs → ∀ c r, f.Refers c r → ∀ q, d.prints c r q → path c r = q
  nameOf : ∀ n t, OriginName d.env.dm n t → (Blank t → nameOf n = str% "<name omitted>") ∧ (¬ Blank t → nameOf n = t)

/-- A lookup of the address `a` finds the first function `f` that starts at `addr`: `a` is in it, and no other function has started. -/
structure FoundAt (d : DumpSource) (addr a : Nat) (f : Func) : Prop where
  first : ∃ rest, funcsAt d.fs addr = f :: rest
  stop : f.address + f.size < M32
  lo : addr ≤ a
  hi : a < f.address + f.size
  alone : ∀ b, addr < b → b ≤ a → funcsAt d.fs b = []

/-- Lookups (of addresses in functions that start at an address, as far as `on` says) give the frames of the debug information: with inline
information, for functions that meet the conditions of C12, the calls that were inlined and the innermost line; without it, the last line
entry with a number at or before the address. -/
structure Answers (d : DumpSource) (on : Nat → Nat → Prop) (frames : Nat → Option (List Frame)) : Prop where
  nested : d.inlines = true → ∀ addr a f, d.FoundAt addr a f → on addr a → f.WF → f.InlineesNoGap d.env.src →
    (∀ l ∈ f.lines, l.stop ≤ f.address + f.size) → ∀ own, Shown d.env.dm f.name own → ∀ path nameOf, d.Texts path nameOf →
    ∀ l c, Innermost f a l c → ∀ cs, Chain f a cs →
      ∃ shown, FuncName d.env d.platform d.publics addr own shown ∧ frames a = some (debugFrames path nameOf shown cs l c)
  flat : d.inlines = false → ∀ addr a f, d.FoundAt addr a f → on addr a → f.lines.Pairwise (fun l l' => l.address ≤ l'.address) →
    (∀ l ∈ f.lines, l.address < M32 ∧ l.line < M32) → ∀ own, Shown d.env.dm f.name own → ∀ path nameOf, d.Texts path nameOf →
    ∀ before l after, f.lines = before ++ l :: after → l.line ≠ 0 → l.address ≤ a → (∀ x ∈ after, x.line ≠ 0 → a < x.address) →
      ∃ shown, FuncName d.env d.platform d.publics addr own shown ∧ frames a = some [⟨shown, some (path f.comp l.file), l.line⟩]

/-- The FUNC and PUBLIC records of the symbol file, as symbols by address: each stands for something in the dumped file, and nothing is
missing. -/
structure Symbols (d : DumpSource) (m : DumpSyms.Symbols) : Prop where
  sources : ∀ a s, m.get? a = some s → StandsFor d.env d.platform d.main d.fs d.publics d.name d.peName m a s
  functions : ∀ f, some f ∈ d.fs → f.address ≠ 0 → ∃ s, m.get? (u32 f.address) = some s ∧ s.isPublic = false ∧ s.isSynthetic = false
  entries : d.main.format = .pe → ∀ es, d.main.exceptions = some es → ∀ e ∈ es, e.begin ≤ e.stop → Within m e.begin
  publics : ∀ p ∈ d.publics, ¬ p.IsConstant → Within m (u32 p.address)
  sections : ∀ hs, d.main.kind = .elf hs → ∀ h ∈ hs, h.executable = true → m.get? (u32 h.addr) ≠ none
  stop : d.main.kind = .pe ∨ d.main.kind = .pdb → m ≠ [] → ∃ a, IsModuleEnd m a ∧ m.get? a ≠ none

/-- The symbol file describes what it was dumped from. -/
structure Describes (d : DumpSource) (extra : List Str) (file : SymFile) : Prop where
  module : ∃ last, AfterLast '/' d.givenName last ∧ file.modules = [(osName d.platform, d.main.arch, d.main.debugId, last)]
  codeId : file.codeId = ((d.pe.bind (·.codeId)).or d.main.codeId).map (fun c => (c.map Char.toUpper, d.peName))
  infos : file.extra = extra
  files : ∀ i q, (i, q) ∈ file.files → ∃ f c r, some f ∈ d.fs ∧ f.Refers c r ∧ d.prints c r q
  ascending : file.symbols.Pairwise fun x y => x.rva < y.rva
  symbols : ∃ m, d.Symbols m ∧ (∀ r ∈ file.symbols, ∃ s, m.get? r.rva = some s ∧ r.Reads s) ∧
    ∀ a s, m.get? a = some s → ∃ r ∈ file.symbols, r.rva = a ∧ r.Reads s
  answers : d.Answers (fun _ _ => True) file.framesAt
  stack : file.stack.flatMap (fun l => str% "STACK " ++ l ++ str% "\n") = ((d.pe.bind (·.unwind)).or d.main.unwind).getD []

end DumpSource
end DumpSyms
