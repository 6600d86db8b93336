import Verif.Spec.WinReport
import Verif.Proof.WinCrash
import Verif.Proof.Report
/-! # The errors a run on one file reports on Windows -/
namespace DumpSyms
namespace WinHost
open Cache (World)
open Dumper (Env Config seenPe parsePe prepare prepare_iff fromElf fromMacho getPeObjectInfo selectObject_several afterLast_winPath)
open WinUtils (baseName_exists)

/-- What is found out about an input: it crashes the program, it gives an error, or something is dumped. -/
theorem input_error_of {env : Env} {buf : Bytes} {pre filename : Str} {symbolServer : Option Str} {w : Cache.World}
    (hp : WinDirPart pre) (hn : WinProper filename) (hsane : Sane env w.disk) (hpe : SanePe env buf) (hca : SaneCaches env symbolServer w.disk)
    {arch : Str} {mapping : Option (List Mapping.Generator)} {inlines : Bool} {m : Str}
    (h : (getObjectInfo env buf (pre ++ filename) filename mapping arch symbolServer inlines w).1 = .err m) :
    InputError env buf pre filename arch symbolServer w m := by
  suffices InputError env buf pre filename arch symbolServer w m ∨ ∃ o name pe peName platform opts w'',
      DumpedFrom env buf pre filename arch symbolServer w o name pe peName platform opts w'' by
    rcases this with h1 | ⟨o, name, pe, peName, platform, opts, w'', hd⟩
    · exact h1
    have := C112_complete env arch symbolServer hp hn hsane hpe hca hd mapping inlines
    rw [this] at h
    exact .functions o name pe peName platform opts w'' m hd (ObjectInfo.fromObject_err_iff.mp h)
  have hpath := dirOf_exists hp hn
  obtain ⟨stem, hb0⟩ := baseName_exists filename
  unfold getObjectInfo at h
  split at h
  · rename_i hk
    simp only [fromElf] at h
    split at h
    · rename_i e he
      cases h; exact .inl (.elf _ hk he)
    · rename_i o ho; exact .inr ⟨_, _, _, _, _, _, _, .elf o hk ho⟩
  · rename_i hk
    simp only [getPdbObjectInfo] at h
    split at h
    · rename_i e he
      cases h; exact .inl (.pdb _ hk he)
    · rename_i pdb hpdb
      cases hf : findPeForPdb env.net.cab (parsePe env.parsers) w.disk (pre ++ filename) pdb.debugId with
      | panic => rw [hf] at h; cases h
      | err e =>
        exfalso
        obtain ⟨c1, c2⟩ := C108_pe_of_pdb env.net.cab (seenPe env.parsers) w.disk pdb.debugId hp hn hb0
        rw [show parsePe env.parsers = seenPe env.parsers from rfl] at hf
        by_cases hx : ∃ x, PeFor env.net.cab (seenPe env.parsers) w.disk pdb.debugId pre stem x
        · obtain ⟨x, hx⟩ := hx
          rw [(c1 x).mpr hx] at hf; cases hf
        · rw [c2 hx] at hf; cases hf
      | ok r =>
        have hf' := ((C108_pe_of_pdb env.net.cab (seenPe env.parsers) w.disk pdb.debugId hp hn hb0).1 _).mp hf
        cases r with
        | none => exact .inr ⟨_, _, _, _, _, _, _, .pdb pdb stem hk hpdb hb0 hf'⟩
        | some x =>
          obtain ⟨peName, peBuf⟩ := x
          cases hpe' : env.parsers.pe peBuf with
          | some y => exact .inr ⟨_, _, _, _, _, _, _, .pdbPe pdb y.1 peBuf stem peName y.2 hk hpdb hb0 hf' hpe'⟩
          | none =>
            rw [hf] at h
            simp only [Res.bind_ok, hpe'] at h
            cases h
  · rename_i hk
    cases hp' : env.parsers.pe buf with
    | none =>
      exfalso
      simp only [getPePdbObjectInfo] at h
      cases hs : getSymServers env.home w.disk symbolServer with
      | err m =>
        simp only [hs, getPeObjectInfo, hp'] at h
        cases h
      | panic =>
        simp only [hs] at h
        cases h
      | ok servers =>
        simp only [hs, getPePdbBuf, parsePe, hp', Option.map_none] at h
        cases h
    | some x =>
      obtain ⟨pe, rec⟩ := x
      obtain ⟨k1, k2⟩ := hpe pe rec hp'
      have hseen : seenPe env.parsers buf = some ⟨pe.debugId, rec⟩ := by unfold seenPe; rw [hp']; rfl
      by_cases hs : ∃ l, Configured env.home w.disk symbolServer l
      · obtain ⟨servers, hs⟩ := hs
        have hcs : ∀ ss, servers = some ss → PlainCaches ss := by
          rintro ss rfl
          exact hca ss hs
        obtain ⟨c1, c2⟩ := C111_source env.net (seenPe env.parsers) env.cwd (pre ++ filename) buf servers w hseen hpath hsane.cwd k2 k1
          hsane.dirs hsane.room hsane.arrivals hcs
        by_cases hf : ∃ y w', PdbFor env.net env.cwd (pre ++ filename) pe.debugId servers w rec y w'
        · obtain ⟨y, w'', hf⟩ := hf
          right
          by_cases hfound : ∃ b n o fs, y = some (b, n) ∧ env.parsers.pdb b = .ok o ∧ o.functions = .ok fs
          · obtain ⟨b, n, o, fs, rfl, h1, h2⟩ := hfound
            exact ⟨_, _, _, _, _, _, _, .pePdb o pe b n rec servers fs w'' hk hp' hs hf h1 h2⟩
          · exact ⟨_, _, _, _, _, _, _, .pe pe _ rec servers y w'' hk hp' hs hf
              (fun b n o fs h1 h2 h3 => hfound ⟨b, n, o, fs, h1, h2, h3⟩) (afterLast_winPath _)⟩
        · exfalso
          have := c2 hf
          simp only [getPePdbObjectInfo, ((C110_configured _ _ _ hsane.home).1 _).mpr hs] at h
          rw [show parsePe env.parsers = seenPe env.parsers from rfl] at h
          rw [this] at h
          cases h
      · exfalso
        have := (C110_configured _ _ _ hsane.home).2 hs
        simp only [getPePdbObjectInfo, this] at h
        cases h
  · rename_i hk
    simp only [fromMacho] at h
    split at h
    · rename_i e he
      cases h; exact .inl (.macho _ hk he)
    · rename_i objects ho
      by_cases hl : objects.length = 1
      · obtain ⟨x, rfl⟩ := List.length_eq_one_iff.mp hl
        cases x with
        | none => cases h
        | some o => exact .inr ⟨_, _, _, _, _, _, _, .machoOnly o hk ho⟩
      · by_cases hx : ∃ o, some o ∈ objects ∧ o.arch = arch
        · obtain ⟨before, o, after, rfl, ha, hb⟩ : ∃ before o after, objects = before ++ some o :: after ∧ o.arch = arch ∧
              ∀ x, some x ∈ before → x.arch ≠ arch := by
            clear h ho hl
            induction objects with
            | nil => obtain ⟨o, h, _⟩ := hx; cases h
            | cons y ys ih =>
              by_cases hy : ∃ o, y = some o ∧ o.arch = arch
              · obtain ⟨o, rfl, h⟩ := hy
                exact ⟨[], o, ys, rfl, h, by simp⟩
              · obtain ⟨o, h1, h2⟩ := hx
                have h3 : some o ∈ ys := (List.mem_cons.mp h1).resolve_left fun e => hy ⟨o, e.symm, h2⟩
                obtain ⟨before, o', after, rfl, h4, h5⟩ := ih ⟨o, h3, h2⟩
                refine ⟨y :: before, o', after, rfl, h4, fun x hx' => ?_⟩
                rcases List.mem_cons.mp hx' with e | e
                · exact fun ha => hy ⟨x, e.symm, ha⟩
                · exact h5 x e
          refine .inr ⟨_, _, _, _, _, _, _, .machoOf o before after hk ho ?_ ha hb⟩
          apply Classical.byContradiction
          intro hne
          simp only [not_or, ne_eq, Classical.not_not] at hne
          exact hl (by simp [hne.1, hne.2])
        · have hno : ∀ o, some o ∈ objects → o.arch ≠ arch := fun o h1 h2 => hx ⟨o, h1, h2⟩
          have hfind : (objects.filterMap id).find? (fun o => decide (o.arch = arch)) = none := by
            rw [List.find?_eq_none]
            intro x hx
            simpa using hno x (by simpa using hx)
          rw [selectObject_several hl, hfind] at h
          simp only [Res.bind_ok, Res.err.injEq] at h
          subst h
          exact .inl (.arch objects hk ho hl hno)
  · rename_i hk
    cases h; exact .inl (.format hk)

theorem input_error {env : Env} {buf : Bytes} {pre filename : Str} {symbolServer : Option Str} {w : Cache.World}
    (hp : WinDirPart pre) (hn : WinProper filename) (hsane : Sane env w.disk) (hpe : SanePe env buf) (hca : SaneCaches env symbolServer w.disk)
    {arch m : Str} (h : InputError env buf pre filename arch symbolServer w m)
    (mapping : Option (List Mapping.Generator)) (inlines : Bool) :
    (getObjectInfo env buf (pre ++ filename) filename mapping arch symbolServer inlines w).1 = .err m := by
  cases h with
  | format hk => unfold getObjectInfo; simp only [hk]
  | elf _ hk h => unfold getObjectInfo; simp only [hk, fromElf, h]
  | pdb _ hk h => unfold getObjectInfo; simp only [hk, getPdbObjectInfo, h]
  | macho _ hk h => unfold getObjectInfo; simp only [hk, fromMacho, h]
  | arch objects hk ho hl hno =>
    have hfind : (objects.filterMap id).find? (fun o => decide (o.arch = arch)) = none := by
      rw [List.find?_eq_none]
      intro x hx
      simpa using hno x (by simpa using hx)
    unfold getObjectInfo
    simp only [hk, fromMacho, ho]
    rw [selectObject_several hl, hfind]
    rfl
  | functions o name pe peName platform opts w' m hd hf =>
    rw [C112_complete env arch symbolServer hp hn hsane hpe hca hd mapping inlines]
    exact ObjectInfo.fromObject_err_iff.mpr hf

/-- Getting the contents of the input gives an error exactly when an id is given and no file with it is found. -/
theorem contents_error_iff (env : Env) (config : Config) {pre filename : Str} (w : World) (hp : WinDirPart pre) (hn : WinProper filename)
    (hsane : Sane env w.disk) (hca : SaneCaches env config.symbolServer w.disk) (hi : ∀ id, config.debugId = some id ∨ config.codeId = some id → WinProper id) (m : Str) :
    (getFromId env config (pre ++ filename) filename w).1 = .err m ↔
      ∃ id servers w', (config.debugId = some id ∨ config.debugId = none ∧ config.codeId = some id) ∧
        Configured env.home w.disk config.symbolServer servers ∧ Search env.net filename id servers w none w' ∧
        m = str% "Impossible to get file " ++ filename ++ str% " with id " ++ id := by
  have hid : ∀ id, config.debugId.or config.codeId = some id ↔ (config.debugId = some id ∨ config.debugId = none ∧ config.codeId = some id) := by
    intro id
    cases config.debugId <;> simp
  unfold getFromId
  cases ho : config.debugId.or config.codeId with
  | none =>
    simp only
    constructor
    · intro h
      exfalso
      obtain ⟨r1, r2⟩ := readFile_dir env.net.cab w.disk hp hn hsane.dirs
      by_cases hx : ∃ b, readFile env.net.cab w.disk (pre ++ filename) = .ok b
      · obtain ⟨b, hb⟩ := hx
        rw [hb] at h; cases h
      · rw [r2 hx] at h; cases h
    · rintro ⟨id, _, _, h, _⟩
      rw [(hid id).mpr h] at ho; cases ho
  | some id =>
    have hid' := (hid id).mp ho
    have hpi := hi id (hid'.imp_right And.right)
    have hsearch := fun servers (hs : Configured env.home w.disk config.symbolServer servers) =>
      C110_search env.net filename id servers w hn hpi hsane.dirs hsane.room hsane.arrivals (fun ss e => hca ss (e ▸ hs))
    simp only
    constructor
    · intro h
      cases hs : getSymServers env.home w.disk config.symbolServer with
      | err m => exact absurd hs (getSymServers_no_err _ _ _ hsane.home _)
      | panic => rw [hs] at h; cases h
      | ok servers =>
        rw [hs] at h
        simp only at h
        have hc := ((C110_configured _ _ _ hsane.home).1 _).mp hs
        obtain ⟨s1, s2⟩ := hsearch _ hc
        have hne : ∀ m, (searchFile env.net filename id servers w).1 ≠ .err m := by
          intro m hm
          by_cases hx : ∃ x w', Search env.net filename id servers w x w'
          · obtain ⟨x, w', hx⟩ := hx
            rw [(s1 x w').mpr hx] at hm; cases hm
          · rw [s2 hx] at hm; cases hm
        generalize hx : searchFile env.net filename id servers w = x at h hne
        obtain ⟨x, w'⟩ := x
        match x with
        | .panic => cases h
        | .ok (some _) => cases h
        | .err m => exact absurd rfl (hne m)
        | .ok none =>
          simp only [Res.err.injEq] at h
          exact ⟨id, servers, w', hid', hc,
            (s1 _ _).mp hx, h.symm⟩
    · rintro ⟨id', servers, w', h1, h2, h3, rfl⟩
      obtain rfl : id = id' := by
        have := (hid id').mpr h1
        rw [ho] at this; cases this; rfl
      rw [((C110_configured _ _ _ hsane.home).1 _).mpr h2]
      have := ((hsearch _ h2).1 _ _).mpr h3
      simp only [this]

end WinHost
end DumpSyms
