import Verif.Proof.CrashSearch
/-! # When finding out what to dump crashes -/
namespace DumpSyms
namespace Dumper
open WinUtils

theorem input_crash {env : Env} {buf : Bytes} {pre filename : Str} {symbolServer : Option Str} {w : Cache.World}
    (hp : DirPart pre) (hn : ProperComp filename) (hsane : Sane env w.disk) (hpe : SanePe env buf)
    (h : InputCrash env buf (pre ++ filename) symbolServer w) (arch : Str) (mapping : Option (List Mapping.Generator)) (inlines : Bool) :
    (getObjectInfo env buf (pre ++ filename) filename mapping arch symbolServer inlines w).1 = .panic := by
  have hpath : Usable (pre ++ filename) := .inr ⟨pre, filename, rfl, hp, hn⟩
  unfold getObjectInfo
  cases h with
  | macho hk h => simp [hk, fromMacho, h, selectObject]
  | pdb o hk h hc =>
    have := (pe_crash_iff env.net.cab (seenPe env.parsers) w.disk o.debugId hsane.dirs hp hn).mpr hc
    simp only [hk, getPdbObjectInfo, h]
    rw [show parsePe env.parsers = seenPe env.parsers from rfl, this]
    rfl
  | pe hk h =>
    simp only [hk, getPePdbObjectInfo]
    cases hs : Cache.getSymServers env.home w.disk symbolServer with
    | err m => simp only [getPeObjectInfo, h]
    | panic => rfl
    | ok servers => simp only [getPePdbBuf, parsePe, h, Option.map_none]
  | config hk hc =>
    have := (Cache.config_crash_iff _ _ _).mpr hc
    simp only [hk, getPePdbObjectInfo, this]
  | pePdb pe r servers hk h hs hc =>
    obtain ⟨k1, k2⟩ := hpe pe (some r) h
    have hseen : seenPe env.parsers buf = some ⟨pe.debugId, some r⟩ := by unfold seenPe; rw [h]; rfl
    have := (pdb_crash_iff env.net (seenPe env.parsers) env.cwd (pre ++ filename) buf servers w hseen hpath hsane.cwd k2 k1
      hsane.dirs hsane.room hsane.arrivals).mpr ⟨r, rfl, hc⟩
    simp only [hk, getPePdbObjectInfo, ((Cache.C44_configured _ _ _).1 _).mpr hs]
    rw [show parsePe env.parsers = seenPe env.parsers from rfl, this]

theorem input_crash_of {env : Env} {buf : Bytes} {pre filename : Str} {symbolServer : Option Str} {w : Cache.World}
    (hp : DirPart pre) (hn : ProperComp filename) (hsane : Sane env w.disk) (hpe : SanePe env buf)
    {arch : Str} {mapping : Option (List Mapping.Generator)} {inlines : Bool}
    (h : (getObjectInfo env buf (pre ++ filename) filename mapping arch symbolServer inlines w).1 = .panic) :
    InputCrash env buf (pre ++ filename) symbolServer w ∨
      ∃ o name pe peName platform opts w', DumpedFrom env buf (pre ++ filename) filename arch symbolServer w o name pe peName platform opts w' ∧
        fromObject env o name pe peName platform (if opts then mapping else none) (inlines && opts) = .panic := by
  suffices InputCrash env buf (pre ++ filename) symbolServer w ∨ ∃ o name pe peName platform opts w'',
      DumpedFrom env buf (pre ++ filename) filename arch symbolServer w o name pe peName platform opts w'' by
    rcases this with h1 | ⟨o, name, pe, peName, platform, opts, w'', hd⟩
    · exact .inl h1
    have := C81_complete env arch symbolServer hp hn hsane hpe hd mapping inlines
    rw [this] at h
    exact .inr ⟨o, name, pe, peName, platform, opts, w'', hd, h⟩
  have hpath : Usable (pre ++ filename) := .inr ⟨pre, filename, rfl, hp, hn⟩
  unfold getObjectInfo at h
  split at h
  · rename_i hk
    simp only [fromElf] at h
    split at h
    · cases h
    · rename_i o ho; exact .inr ⟨_, _, _, _, _, _, _, .elf o hk ho⟩
  · rename_i hk
    simp only [getPdbObjectInfo] at h
    split at h
    · cases h
    · rename_i pdb hpdb
      cases hf : WinUtils.findPeForPdb env.net.cab (parsePe env.parsers) w.disk (pre ++ filename) pdb.debugId with
      | err m => rw [hf] at h; cases h
      | panic => exact .inl (.pdb pdb hk hpdb ((pe_crash_iff env.net.cab (seenPe env.parsers) w.disk pdb.debugId hsane.dirs hp hn).mp hf))
      | ok r =>
        have hf' := ((WinUtils.C43_pe_of_pdb env.net.cab (seenPe env.parsers) w.disk pdb.debugId hsane.dirs hp hn).1 _).mp hf
        cases r with
        | none => exact .inr ⟨_, _, _, _, _, _, _, .pdb pdb hk hpdb hf'⟩
        | some x =>
          obtain ⟨peName, peBuf⟩ := x
          cases hpe' : env.parsers.pe peBuf with
          | some y => exact .inr ⟨_, _, _, _, _, _, _, .pdbPe pdb y.1 peBuf peName y.2 hk hpdb hf' hpe'⟩
          | none =>
            exfalso
            cases hf' with
            | found _ _ _ _ _ _ _ _ _ _ _ _ _ _ hpr =>
              obtain ⟨_, _, pe, h1, _⟩ := hpr
              unfold seenPe at h1
              rw [hpe'] at h1; cases h1
  · rename_i hk
    cases hp' : env.parsers.pe buf with
    | none => exact .inl (.pe hk hp')
    | some x =>
      obtain ⟨pe, rec⟩ := x
      obtain ⟨k1, k2⟩ := hpe pe rec hp'
      have hseen : seenPe env.parsers buf = some ⟨pe.debugId, rec⟩ := by unfold seenPe; rw [hp']; rfl
      by_cases hs : ∃ l, Cache.Configured env.home w.disk symbolServer l
      · obtain ⟨servers, hs⟩ := hs
        obtain ⟨c1, c2⟩ := WinUtils.C58_source_partial env.net (seenPe env.parsers) env.cwd (pre ++ filename) buf servers w hseen hpath hsane.cwd k2 k1
          hsane.dirs hsane.room hsane.arrivals
        by_cases hf : ∃ y w', WinUtils.PdbFor env.net env.cwd (pre ++ filename) pe.debugId servers w rec y w'
        · obtain ⟨y, w'', hf⟩ := hf
          right
          by_cases hfound : ∃ b n o fs, y = some (b, n) ∧ env.parsers.pdb b = .ok o ∧ o.functions = .ok fs
          · obtain ⟨b, n, o, fs, rfl, h1, h2⟩ := hfound
            exact ⟨_, _, _, _, _, _, _, .pePdb o pe b n rec servers fs w'' hk hp' hs hf h1 h2⟩
          · exact ⟨_, _, _, _, _, _, _, .pe pe _ rec servers y w'' hk hp' hs hf
              (fun b n o fs h1 h2 h3 => hfound ⟨b, n, o, fs, h1, h2, h3⟩) (afterLast_winPath _)⟩
        · have := c2 hf
          obtain ⟨r, e, hc⟩ := (pdb_crash_iff env.net (seenPe env.parsers) env.cwd (pre ++ filename) buf servers w hseen hpath hsane.cwd k2 k1
            hsane.dirs hsane.room hsane.arrivals).mp this
          simp only at e
          subst e
          exact .inl (.pePdb pe r servers hk hp' hs hc)
      · exact .inl (.config hk ((Cache.config_crash_iff _ _ _).mp ((Cache.C44_configured _ _ _).2 hs)))
  · rename_i hk
    simp only [fromMacho] at h
    split at h
    · cases h
    · rename_i objects ho
      cases hs : selectObject arch objects with
      | err m => rw [hs] at h; cases h
      | panic =>
        unfold selectObject at hs
        split at hs
        · exact .inl (.macho hk ho)
        · cases hs
        · cases hs
      | ok r =>
        right
        rw [hs] at h
        cases r with
        | none => cases h
        | some o =>
          unfold selectObject at hs
          split at hs
          · cases hs
          · cases hs; exact ⟨_, _, _, _, _, _, _, .machoOnly o hk ho⟩
          · rename_i h1 h2
            simp only [Res.ok.injEq] at hs
            obtain ⟨ha, bs, as, e, hb⟩ := List.find?_eq_some_iff_append.mp hs
            obtain ⟨before, rest, rfl, e1, e2⟩ := List.filterMap_eq_append_iff.mp e
            obtain ⟨skip, x, after, rfl, hskip, hx, e3⟩ := List.filterMap_eq_cons_iff.mp e2
            simp only [id_eq] at hx
            subst hx
            refine ⟨_, _, _, _, _, _, _, .machoOf o (before ++ skip) after hk (by rw [ho]; simp) ?_ (by simpa using ha) ?_⟩
            · by_cases hb : before ++ skip = []
              · right
                rintro rfl
                obtain ⟨rfl, rfl⟩ := List.append_eq_nil_iff.mp hb
                exact h2 o rfl
              · exact .inl hb
            · intro x hx
              rcases List.mem_append.mp hx with hx | hx
              · have : x ∈ bs := by rw [← e1]; simpa using hx
                simpa using hb x this
              · have := hskip _ hx
                simp at this
  · cases h

/-- Getting the contents of the input crashes exactly in the cases described. -/
theorem contents_crash_iff (env : Env) (config : Config) {pre filename : Str} (w : Cache.World) (hp : DirPart pre) (hn : ProperComp filename)
    (hsane : Sane env w.disk) (hi : ∀ id, config.debugId = some id ∨ config.codeId = some id → ProperComp id) :
    (getFromId env config (pre ++ filename) filename w).1 = .panic ↔ ContentsCrash env config (pre ++ filename) filename w := by
  have hid : ∀ id, config.debugId.or config.codeId = some id ↔ (config.debugId = some id ∨ config.debugId = none ∧ config.codeId = some id) := by
    intro id
    cases config.debugId <;> simp
  have hread : Files.readFile env.net.cab w.disk (pre ++ filename) = .panic ↔ CannotRead env.net.cab w.disk (pre ++ filename) :=
    cannotRead_iff (fun _ _ _ => ⟨pre, filename, rfl, hp, hn⟩) hsane.dirs
  unfold getFromId
  cases ho : config.debugId.or config.codeId with
  | none =>
    have h1 : config.debugId = none ∧ config.codeId = none := by
      cases h1 : config.debugId <;> cases h2 : config.codeId <;> simp_all
    simp only [hread]
    constructor
    · exact .byPath h1.1 h1.2
    · intro h
      cases h with
      | byPath _ _ h => exact h
      | config id h _ => rw [(hid id).mpr h] at ho; cases ho
      | byId id _ h _ => rw [(hid id).mpr h] at ho; cases ho
  | some id =>
    have hid' := (hid id).mp ho
    have hpi := hi id (hid'.imp_right And.right)
    have hsearch := fun servers => Cache.search_crash_iff env.net filename id servers w hn hpi hsane.dirs hsane.room hsane.arrivals
    simp only
    constructor
    · intro h
      cases hs : Cache.getSymServers env.home w.disk config.symbolServer with
      | err m => rw [hs] at h; cases h
      | panic => exact .config id hid' ((Cache.config_crash_iff _ _ _).mp hs)
      | ok servers =>
        rw [hs] at h
        have h : (Cache.searchFile env.net filename id servers w).1 = .panic := by
          generalize hx : (Cache.searchFile env.net filename id servers w).1 = x at h
          match x with
          | .panic => rfl
          | .ok (some _) => simp [hx] at h
          | .ok none => simp [hx] at h
          | .err _ => simp [hx] at h
        obtain ⟨ss, rfl, h2⟩ := (hsearch _).mp h
        exact .byId id ss hid' (((Cache.C44_configured _ _ _).1 _).mp hs) h2
    · intro h
      cases h with
      | byPath h1 h2 h => rw [h1, h2] at ho; cases ho
      | config _ _ h => rw [(Cache.config_crash_iff _ _ _).mpr h]
      | byId id' ss h1 h2 h3 =>
        obtain rfl : id = id' := by
          have := (hid id').mpr h1
          rw [ho] at this; cases this; rfl
        rw [((Cache.C44_configured _ _ _).1 _).mpr h2]
        have := (hsearch _).mpr ⟨ss, rfl, h3⟩
        simp only [this]

end Dumper
end DumpSyms
