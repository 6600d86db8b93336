import Verif.Model.Collector
import Verif.Props.Common
/-!
# The names computed by the model are those of the specification
-/
namespace DumpSyms
open Common

theorem shown_iff (dm : Name → Option Str) (n : Name) (t : Str) : Shown dm n t ↔ t = InlineOrigins.demangle dm n := by
  have hfix : ∀ c, c = (fixSymbolName n).text → { n with text := c } = fixSymbolName n := by rintro c rfl; rfl
  have key : ∀ c, c = (fixSymbolName n).text → ((n.lang = .c → t = c) ∧
      (n.lang ≠ .c → (∀ d, dm { n with text := c } = some d → t = d) ∧ (dm { n with text := c } = none → t = c)) ↔
        t = InlineOrigins.demangle dm n) := by
    intro c hc
    have hl : (fixSymbolName n).lang = n.lang := rfl
    rw [hfix c hc]
    unfold InlineOrigins.demangle
    by_cases h : n.lang = .c
    · simp [h, hl, hc]
    · simp only [hl, h, if_false]
      cases hd : dm (fixSymbolName n) with
      | none => simp [hc, h]
      | some d => simp [h]
  constructor
  · rintro ⟨c, h1, h2⟩
    exact (key c ((C54_cleaned n c).mp h1)).mp h2
  · intro h
    exact ⟨_, cleaned_fix n, (key _ rfl).mpr h⟩

theorem shown_demangle (env : CEnv) (n : Name) (t : Str) : Shown env.dm n t ↔ t = Collector.demangle env n := shown_iff env.dm n t

theorem originName_iff (dm : Name → Option Str) (n : Name) (t : Str) :
    OriginName dm n t ↔ t = InlineOrigins.demangleAndSanitize dm n := by
  have hf : (fun c : Char => decide (¬ (c.toNat < 32 ∨ c.toNat = 127))) = fun c => !isAsciiControl c := by
    funext c
    rw [Bool.eq_iff_iff]
    simp only [decide_eq_true_eq, isAsciiControl, Bool.not_eq_true', Bool.or_eq_false_iff, decide_eq_false_iff_not]
    omega
  unfold OriginName InlineOrigins.demangleAndSanitize
  rw [hf]
  constructor
  · rintro ⟨s, h1, h2⟩
    rw [(shown_iff dm n s).mp h1] at h2
    exact h2
  · intro h
    exact ⟨_, (shown_iff dm n _).mpr rfl, h⟩

theorem originNames_iff (dm : Name → Option Str) (ns : List Name) (l : List Str) :
    OriginNames dm ns l ↔ l = ns.map (InlineOrigins.demangleAndSanitize dm) := by
  constructor
  · intro h
    apply List.ext_getElem (by simp [h.1])
    intro i h1 h2
    rw [List.getElem_map]
    exact (originName_iff _ _ _).mp (h.2 i _ _ (List.getElem?_eq_getElem (by simpa using h2)) (List.getElem?_eq_getElem h1))
  · rintro rfl
    refine ⟨by simp, ?_⟩
    intro i n t h1 h2
    rw [List.getElem?_map, h1] at h2
    exact (originName_iff _ _ _).mpr (Option.some.inj h2).symm

theorem publicName_iff (env : CEnv) (n t : Str) : PublicName env.dm env.detect n t ↔ t = Collector.demangleStr env n := by
  unfold PublicName Collector.demangleStr
  by_cases h : env.detect n = .unknown
  · simp [h]
  · have hc : ∀ c, Cleaned n c ↔ c = (fixSymbolName { text := n, mangled := true, lang := env.detect n }).text :=
      fun c => C54_cleaned { text := n, mangled := true, lang := env.detect n } c
    simp only [h, ne_eq, not_false_eq_true, if_false, hc, exists_eq_left, forall_const, false_implies, true_and]
    have e : ({ text := (fixSymbolName { text := n, mangled := true, lang := env.detect n }).text, mangled := true, lang := env.detect n } : Name) =
      fixSymbolName { text := n, mangled := true, lang := env.detect n } := rfl
    rw [e]
    cases hd : env.dm (fixSymbolName { text := n, mangled := true, lang := env.detect n }) with
    | none => simp
    | some d => simp

end DumpSyms
