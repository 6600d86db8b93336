import Verif.Spec.Object
import Verif.Spec.Names
/-!
# Where the FUNC and PUBLIC records of a dump come from
-/
namespace DumpSyms
open Collector

/-- A public symbol at an address that is not a compiler-made constant. -/
def Collector.Public.At (p : Public) (a : Nat) : Prop := u32 p.address = a ∧ ¬ p.IsConstant

/-- The name of a FUNC record is its own, or, for Windows and if its own has no parenthesis, the one in the decorated name of a public
symbol at its address. -/
def FuncName (env : CEnv) (pl : Platform) (ps : List Public) (a : Nat) (own name : Str) : Prop :=
  name = own ∨ (pl = .win ∧ '(' ∉ own ∧ ∃ p ∈ ps, p.At a ∧ ∃ q base size, p.name = some q ∧ Undecorated q base size ∧
    PublicName env.dm env.detect base name)

/-- The parameter size of a FUNC record is 0, or, for Windows, the one in the decorated name of a public symbol at its address. -/
def FuncParams (pl : Platform) (ps : List Public) (a k : Nat) : Prop :=
  k = 0 ∨ (pl = .win ∧ ∃ p ∈ ps, p.At a ∧ ∃ q base, p.name = some q ∧ Undecorated q base (some k))

/-- The name and parameter size of a PUBLIC record for a public symbol: for Windows those in its decorated name. -/
def PublicShown (env : CEnv) (pl : Platform) (p : Public) (name : Str) (k : Nat) : Prop :=
  (p.name = none → name = str% "<name omitted>" ∧ k = 0) ∧
  ∀ n, p.name = some n →
    (pl ≠ .win → PublicName env.dm env.detect n name ∧ k = 0) ∧
    (pl = .win → ∀ base size, Undecorated n base size → PublicName env.dm env.detect base name ∧ k = size.getD 0)

/-- The name of records that stand for unnamed code of a module. -/
def UnknownIn (module : Str) : Str := if module = [] then str% "<unknown>" else str% "<unknown in " ++ module ++ str% ">"

/-- The place for the end-of-module record: `a` is the end (as a 32-bit address) of the last symbol at another address, or the address after
its start if it is empty. -/
def IsModuleEnd (m : Symbols) (a : Nat) : Prop :=
  ∃ b t, b ≠ a ∧ m.get? b = some t ∧ (∀ c x, c ≠ a → m.get? c = some x → c ≤ b) ∧ a = u32 (b + if t.len = 0 then 1 else t.len)

/-- What the symbol `s` at the address `a` of the symbols `m` of a dump stands for.  `fs` are the functions and `ps` the public symbols of
the dumped file; `name` is its name, `peName` that of the PE it belongs to. -/
inductive StandsFor (env : CEnv) (pl : Platform) (main : ObjInput) (fs : List (Option Func)) (ps : List Public) (name : Str)
    (peName : Option Str) (m : Symbols) (a : Nat) (s : Symbol) : Prop
  /-- The first function reported at its address. -/
  | function (f : Func) (rest : List Func) (own : Str) : funcsAt fs a = f :: rest → s.isPublic = false → s.isSynthetic = false →
      s.len = u32 f.size → (s.isMultiple = true ↔ rest ≠ []) → Shown env.dm f.name own → FuncName env pl ps a own s.name →
      FuncParams pl ps a s.parameterSize → StandsFor env pl main fs ps name peName m a s
  /-- An entry of the exception table of a PE where there is no function. -/
  | entry (es : List ExcEntry) (e : ExcEntry) : main.format = .pe → main.exceptions = some es → e ∈ es → e.begin = a →
      e.stop = a + s.len → funcsAt fs a = [] → s.isPublic = false → s.isSynthetic = true → s.isMultiple = false → s.NoRecords →
      FuncName env pl ps a (UnknownIn (peName.getD name)) s.name → FuncParams pl ps a s.parameterSize →
      StandsFor env pl main fs ps name peName m a s
  /-- The first public symbol at its address. -/
  | pub (before : List Public) (p : Public) (after : List Public) : ps = before ++ p :: after → p.At a → (∀ q ∈ before, ¬ q.At a) →
      funcsAt fs a = [] → s.isPublic = true → s.isSynthetic = false → s.len = u32 p.size → s.NoRecords →
      PublicShown env pl p s.name s.parameterSize → (s.isMultiple = true → ∃ q ∈ after, q.At a) →
      StandsFor env pl main fs ps name peName m a s
  /-- The first executable section of an ELF file at its address. -/
  | section (before : List Section) (h : Section) (after : List Section) : main.kind = .elf (before ++ h :: after) →
      h.executable = true → u32 h.addr = a → (∀ k ∈ before, k.executable = true → u32 k.addr ≠ a) →
      s.isPublic = true → s.isSynthetic = true → s.isMultiple = false → s.NoRecords → s.parameterSize = 0 →
      s.name = str% "<" ++ h.name.getD (str% "unknown") ++ str% " ELF section in " ++
        (if name = [] then str% "unknown" else name) ++ str% ">" → StandsFor env pl main fs ps name peName m a s
  /-- The end of a PE or PDB. -/
  | stop : main.kind = .pe ∨ main.kind = .pdb → IsModuleEnd m a →
      s.isPublic = true → s.isSynthetic = true → s.isMultiple = false → s.NoRecords → s.parameterSize = 0 → s.name = UnknownIn name →
      StandsFor env pl main fs ps name peName m a s

/-- There is a symbol at the address, or one that extends over it. -/
def Within (m : Symbols) (a : Nat) : Prop := ∃ b s, m.get? b = some s ∧ b ≤ a ∧ (b = a ∨ a < b + s.len)

end DumpSyms
