import Verif.Props.Collector
import Verif.Props.Symbol
/-!
# C75: the same name for the same function
-/
namespace DumpSyms
open Collector

/-- **C75 (partial).** A function that the debug information and the symbol table both name, with a mangled name whose language can be told
from the name and is not C, gets the same name from either; as an inlined function it gets that name without control characters.
Missing: C functions, and names whose language cannot be told (`C75_c_name_witness`). -/
theorem C75_same_name_partial (env : CEnv) (mem : Mem) (U : List Str) (V : List Name) (inlines : Bool) (fs : List (Option Func))
    (hin : InputOk env mem U V fs) (addr : Nat) (f : Func) (rest : List Func) (hfirst : funcsAt fs addr = f :: rest)
    (n : Str) (hn : f.name = { text := n, mangled := true, lang := env.detect n }) (hu : env.detect n ≠ .unknown)
    (hc : env.detect n ≠ .c) (pl : Platform) (hpl : pl ≠ .win) (p : Public) (hp : p.name = some n) (hcon : ¬ p.IsConstant)
    (m m' : Symbols) (hs : m.Sorted) (hk : Keyed m) (hfree : m.get? (u32 p.address) = none)
    (hout : ¬ InsideClosest m (u32 p.address)) (hm : collectPublic env pl p m = .ok m') :
    ∃ st sym s, collectFunctions env inlines fs State.new = .ok st ∧ st.syms.get? addr = some sym ∧
      m'.get? (u32 p.address) = some s ∧ s.name = sym.name ∧
      ∀ t, OriginName env.dm f.name t → t = sym.name.filter fun c => decide (¬ (c.toNat < 32 ∨ c.toNat = 127)) := by
  obtain ⟨st, h1, _, h2⟩ := C10_first_function_wins env mem U V inlines fs hin
  have h3 := h2 addr
  rw [hfirst] at h3
  obtain ⟨sym, g1, _, _, g2, _⟩ := h3
  obtain ⟨_, _, h5⟩ := C15_one_public env pl p m m' hs hk hm
  obtain ⟨s, k1, _, _, _, _, _, _, k2, _⟩ := (h5 hcon hout).1 hfree
  have k3 := (k2 (.inl hpl)).2.2 n hp
  refine ⟨st, sym, s, h1, g1, k1, ?_, ?_⟩
  · rw [publicName_iff] at k3
    rw [shown_demangle, hn] at g2
    rw [k3, g2]
    unfold demangleStr demangle
    rw [if_neg hu, if_neg (show (Common.fixSymbolName { text := n, mangled := true, lang := env.detect n }).lang ≠ .c from hc)]
  · rintro t ⟨x, a, b⟩
    rw [shown_demangle] at a g2
    rw [b, a, g2]

/-- The name of a C function, as the debug information gives it, and its language as told from the name. -/
def cName : Name := { text := str% "f.cold", mangled := true, lang := .c }

/-- **C75 is false for C functions.** The debug information and the symbol table name a function `f.cold`.  It is shown as `f` from the
first and as `f.cold` from the second. -/
theorem C75_c_name_witness : ∃ st sym m s,
    collectFunctions sampleCEnv false [some (.mk 0x1000 4 cName sampleComp [] [])] State.new = .ok st ∧ st.syms.get? 0x1000 = some sym ∧
    collectPublic sampleCEnv .linux ⟨some (str% "f.cold"), 0x1000, 4⟩ [] = .ok m ∧ m.get? 0x1000 = some s ∧
    sym.name = str% "f" ∧ s.name = str% "f.cold" :=
  ⟨_, _, _, _, rfl, rfl, rfl, rfl, by decide, by decide⟩

/-- A mangled name whose language can be told. -/
def cxxEnv : CEnv := { sampleCEnv with detect := fun _ => .other 1 }
example : ∃ st sym m s,
    collectFunctions cxxEnv false [some (.mk 0x1000 4 (nm (str% "_Zf.cold")) sampleComp [] [])] State.new = .ok st ∧
    st.syms.get? 0x1000 = some sym ∧ collectPublic cxxEnv .linux ⟨some (str% "_Zf.cold"), 0x1000, 4⟩ [] = .ok m ∧
    m.get? 0x1000 = some s ∧ sym.name = str% "_Zf()" ∧ s.name = str% "_Zf()" :=
  ⟨_, _, _, _, rfl, rfl, rfl, rfl, by decide, by decide⟩

end DumpSyms
