import Verif.Proof.Mini
import Verif.Props.MergeSamples
/-!
# C76: embedded debug data
-/
namespace DumpSyms
open ObjectInfo Collector

theorem collectPublics_append (env : CEnv) (pl : Platform) (a b : List Public) (m : Symbols) :
    collectPublics env pl (a ++ b) m = collectPublics env pl a m >>= collectPublics env pl b := by
  induction a generalizing m with
  | nil => rfl
  | cons p a ih =>
    simp only [List.cons_append, collectPublics]
    cases collectPublic env pl p m with
    | ok x => exact ih x
    | err e => rfl
    | panic => rfl

theorem miniPublics_strip {main : ObjInput} (hin : main.EmbeddedInside) (ps : List Public) :
    miniPublics (main.stripEmbedded ps) = .ok none := by
  rcases miniPublics_cases (main.stripEmbedded ps) with ⟨_, h⟩ | ⟨h, h1, h2⟩
  · exact h
  · rw [if_pos (by have := hin h h1; simpa [ObjInput.stripEmbedded] using this)] at h2
    exact h2

/-- **C76 (partial).** When its embedded debug data lies within the file, a file is dumped as one whose symbol table has the embedded
symbols after its own and whose embedded data cannot be unpacked.  So data that cannot be used has no effect (`ps = []`).  What is embedded
is determined by the file.  Missing: a section that reaches past the end of the file (`C76_past_end_witness`). -/
theorem C76_embedded_partial (env : CEnv) (inlines : Bool) (pl : Platform) (main : ObjInput) (name : Str) (pe : Option ObjInput)
    (peName : Option Str) (hin : main.EmbeddedInside) :
    ∃ ps, main.Embeds ps ∧ (∀ qs, main.Embeds qs → qs = ps) ∧
      fromObject env inlines pl main name pe peName = fromObject env inlines pl (main.stripEmbedded ps) name pe peName := by
  obtain ⟨r, hr⟩ := miniPublics_ok hin
  refine ⟨r.getD [], (embeds_iff hin _).mpr ⟨r, hr, rfl⟩, ?_, ?_⟩
  · intro qs hq
    obtain ⟨r', e, rfl⟩ := (embeds_iff hin _).mp hq
    rw [hr] at e; cases e; rfl
  · have hs := miniPublics_strip hin (r.getD [])
    have hc : ∀ fs, collect env inlines pl main name peName fs = collect env inlines pl (main.stripEmbedded (r.getD [])) name peName fs := by
      intro fs
      unfold collect withMini
      rw [hr, hs]
      simp only [Res.bind_ok]
      congr 1
      funext st
      have e : collectPublics env pl (main.stripEmbedded (r.getD [])).publics
            (withPlaceholders (main.stripEmbedded (r.getD [])) name peName st.syms) =
          collectPublics env pl main.publics (withPlaceholders main name peName st.syms) >>= collectPublics env pl (r.getD []) :=
        collectPublics_append ..
      rw [e]
      cases collectPublics env pl main.publics (withPlaceholders main name peName st.syms) with
      | ok m => cases r <;> rfl
      | err e => rfl
      | panic => rfl
    unfold fromObject
    show (match main.functions with | .error e => _ | .ok fs => _) = (match main.functions with | .error e => _ | .ok fs => _)
    cases main.functions with
    | error e => rfl
    | ok fs => simp only [hc]; rfl

/-- A file with embedded debug data: bytes 2 to 3 of it, which unpack to the byte 7, which has the symbol `g`. -/
def embedded (offset : Nat) : ObjInput :=
  { objOf (str% "E1") false [] [⟨some (str% "f"), 0x1000, 4⟩] with
    kind := .elf [⟨some (str% ".text"), 0x1000, true, 0, 0⟩, ⟨some (str% ".gnu_debugdata"), 0, false, offset, 2⟩]
    data := [1, 2, 3, 4, 5]
    unxz := fun b => if b = [3, 4] then some [7] else none
    parsePublics := fun b => if b = [7] then some [⟨some (str% "g"), 0x2000, 4⟩] else none }

/-- **C76 is false of a section that reaches past the end of the file**: the run panics. -/
theorem C76_past_end_witness : dumpOf (embedded 4) = .panic := by decide

/-- The embedded symbol is there if the data can be unpacked. -/
example : (theObj (dumpOf (embedded 2))).symbols.map (fun e => (e.1, e.2.name)) =
    [(0x1000, str% "f"), (0x2000, str% "g")] := by decide

example : (theObj (dumpOf (embedded 3))).symbols.map (fun e => (e.1, e.2.name)) = [(0x1000, str% "f")] := by decide

theorem embedded_inside {n : Nat} (hn : n ≤ 3) : (embedded n).EmbeddedInside := by
  have h0 : (embedded n).EmbeddedIn ⟨some (str% ".gnu_debugdata"), 0, false, n, 2⟩ :=
    ⟨[⟨some (str% ".text"), 0x1000, true, 0, 0⟩], [], rfl, rfl, by simp⟩
  intro k hk
  rw [← embeddedIn_unique h0 hk]
  show n + 2 ≤ 5
  omega

example : (embedded 2).EmbeddedInside ∧ (embedded 2).Embeds [⟨some (str% "g"), 0x2000, 4⟩] :=
  ⟨embedded_inside (by decide), (embeds_iff (embedded_inside (by decide)) _).mpr ⟨_, rfl, rfl⟩⟩

end DumpSyms
