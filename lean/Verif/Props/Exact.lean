import Verif.Props.Crash
/-!
# C38, C59, C60: exactly when the program crashes there
-/
namespace DumpSyms

namespace Mapping

/-- **C38, exactly.** Building the mappings panics exactly when the variables are well formed and either the mapping file is there but cannot be read, or
the configuration without the two lists is accepted and one of the lists is absent and the other one present but empty. -/
theorem C38_panics_iff (env : MapEnv) (varArgs sources destinations : Option (List Str)) (file : Option Str) :
    new env varArgs sources destinations file = .panic ↔
      ((∀ v ∈ varArgs.getD [], '=' ∈ v) ∧ ∃ f, file = some f ∧ env.read f = .panic) ∨
      ((∃ o, new env varArgs none none file = .ok o) ∧
        (sources = none ∧ destinations = some [] ∨ sources = some [] ∧ destinations = none)) := by
  have hnone := new_crash_iff env varArgs none none file (by simp) (by simp)
  by_cases hl : sources = none ∧ destinations = some [] ∨ sources = some [] ∧ destinations = none
  · rw [← hnone]
    simp only [hl, and_true]
    have hp : ∀ vars out, getMappings env vars sources destinations out = .panic := by
      intro vars out
      rcases hl with ⟨rfl, rfl⟩ | ⟨rfl, rfl⟩ <;> rfl
    unfold new
    cases hv : getVariables varArgs with
    | err m => simp
    | panic => simp
    | ok vars =>
      simp only [Res.bind_ok]
      cases hf : getMappingsFromFile env vars file [] with
      | err m => simp
      | panic => simp
      | ok m =>
        simp only [Res.bind_ok, hp]
        simp [getMappings]
  · rw [or_iff_left (fun h => hl h.2)]
    have hno : ∀ vars out, getMappings env vars sources destinations out ≠ .panic := by
      intro vars out h
      unfold getMappings at h
      match sources, destinations, hl with
      | none, none, _ => cases h
      | none, some [], hl => simp at hl
      | none, some (x :: xs), _ => simp at h
      | some [], none, hl => simp at hl
      | some (x :: xs), none, _ => simp at h
      | some ss, some ds, _ =>
        simp only [Option.isNone_some, Bool.false_and, Bool.false_eq_true, if_false, Option.map_some, Option.getD_some] at h
        split at h
        · cases h
        · exact pairsLoop_no_panic _ _ _ _ _ h
    rw [← hnone]
    unfold new
    cases hv : getVariables varArgs with
    | err m => simp
    | panic => simp
    | ok vars =>
      simp only [Res.bind_ok]
      cases hf : getMappingsFromFile env vars file [] with
      | err m => simp
      | panic => simp
      | ok m =>
        simp only [Res.bind_ok]
        cases hg : getMappings env vars sources destinations m with
        | err e => simp [getMappings]
        | panic => exact absurd hg (hno _ _)
        | ok g => simp [getMappings]

end Mapping

namespace Cache

/-- **C59, exactly.** A search for a file panics exactly when the cached file cannot be read, a server cannot be asked (its address is not a URL, or the
name ends with a character of several bytes), the file sent cannot be put in the cache, or it is a cabinet that does not hold the file. -/
theorem C59_panics_iff (net : Net) (name id : Str) (servers : Option (List Server)) (w : World) (hn : ProperComp name)
    (hi : ProperComp id) (hd : ∀ q es, w.disk q = some (.dir es) → ∀ e ∈ es, ProperComp e)
    (hroom : ∀ u st raw p, net.get u = some (st, raw) → raw.length ≤ net.room p) (har : ∀ js, ∀ j ∈ net.arrivals js, j ∈ js) :
    (searchFile net name id servers w).1 = .panic ↔ ∃ ss, servers = some ss ∧ SearchCrash net name id ss w :=
  search_crash_iff net name id servers w hn hi hd hroom har

/-- C59 applied: the name of the witness ends with a character of two bytes. -/
example : SearchCrash (exNet 1000 (200, [1]) exCab) (str% "mé") (str% "ID") exServers noWorld := by
  obtain ⟨ss, e, h⟩ := (C59_panics_iff (exNet 1000 (200, [1]) exCab) (str% "mé") (str% "ID") (some exServers) noWorld (by unfold ProperComp; decide)
    (by unfold ProperComp; decide) (fun q es h => by cases h)
    (fun u st raw p h => by
      simp only [exNet] at h
      split at h <;> cases h; exact (by decide : 1 ≤ 1000))
    (fun js j h => (List.mem_filter.mp h).1)).mp C59_multibyte_witness
  cases e
  exact h

end Cache

namespace WinUtils

/-- **C60, exactly.** The search for the PDB of a PE panics exactly when the first file found in the places looked at cannot be read, or there is none
and the search in the caches and on the symbol servers panics (C59). -/
theorem C60_panics_iff (net : Cache.Net) (parse : ParsePe) (cwd path : Str) (buf : Bytes)
    (servers : Option (List Cache.Server)) (w : Cache.World) {pe : Pe} (hpe : parse buf = some pe) (hpath : Usable path) (hcwd : Usable cwd)
    (hrec : ∀ r, pe.debugFileName = some r → Usable (slashes r)) (hi : ProperComp pe.debugId)
    (hd : ∀ q es, w.disk q = some (.dir es) → ∀ e ∈ es, ProperComp e)
    (hroom : ∀ u st raw p, net.get u = some (st, raw) → raw.length ≤ net.room p) (har : ∀ js, ∀ j ∈ net.arrivals js, j ∈ js) :
    (getPePdbBuf net parse cwd path buf servers w).1 = .panic ↔
      ∃ r, pe.debugFileName = some r ∧ PdbCrash net cwd path pe.debugId r servers w :=
  pdb_crash_iff net parse cwd path buf servers w hpe hpath hcwd hrec hi hd hroom har

end WinUtils
end DumpSyms
