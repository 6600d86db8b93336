import Verif.Spec.Inputs
import Verif.Proof.Errless
import Verif.Props.Dumper
/-!
# C44, C60, C61, C81: what a file is dumped from
-/
namespace DumpSyms

theorem AfterLast.unique {c : Char} {s a b : Str} (ha : AfterLast c s a) (hb : AfterLast c s b) : a = b := by
  obtain ⟨a1, p, rfl, a2⟩ := ha
  obtain ⟨b1, q, e, b2⟩ := hb
  rcases List.append_eq_append_iff.mp e with ⟨x, h1, h2⟩ | ⟨x, h1, h2⟩
  · cases hx : x.getLast? with
    | none => rw [List.getLast?_eq_none_iff.mp hx] at h2; simpa using h2
    | some c =>
      exfalso
      have hq : q.getLast? = some c := by rw [h1, List.getLast?_append, hx]; rfl
      rcases b2 with rfl | b2
      · cases hq
      · rw [hq] at b2; cases b2
        exact a1 (by rw [h2]; exact List.mem_append_left _ (List.mem_of_getLast? hx))
  · cases hx : x.getLast? with
    | none => rw [List.getLast?_eq_none_iff.mp hx] at h2; simpa using h2.symm
    | some c =>
      exfalso
      have hq : p.getLast? = some c := by rw [h1, List.getLast?_append, hx]; rfl
      rcases a2 with rfl | a2
      · cases hq
      · rw [hq] at a2; cases a2
        exact b1 (by rw [h2]; exact List.mem_append_left _ (List.mem_of_getLast? hx))

namespace Cache

theorem serversIn_iff {home : Option Str} {s : Str} {l : Option (List Server)} : ServersIn home s l ↔ readConfigFromStr home s = l := by
  constructor
  · rintro (⟨es, l, h1, h2, h3⟩ | ⟨es, h1, h2⟩)
    · exact (C44_parse home s l).mpr ⟨h1, es, h2, h3⟩
    · exact (C44_none home s).mpr ⟨es, h1, h2⟩
  · intro h
    cases l with
    | none => obtain ⟨es, h1, h2⟩ := (C44_none home s).mp h; exact .none es h1 h2
    | some l => obtain ⟨h1, es, h2, h3⟩ := (C44_parse home s l).mp h; exact .some es l h1 h2 h3

theorem inside_push {dir name : Str} (h : Path.isAbs name = false) : Path.push dir name = Inside dir name := by
  unfold Path.push Inside
  rw [h, if_neg (by simp)]
  by_cases hd : dir = []
  · subst hd; rfl
  · have : dir.getLast? ≠ none := fun e => hd (List.getLast?_eq_none_iff.mp e)
    simp [hd, this]

/-- **C44, the servers of a run**: those of the symbol path given, or those of the configuration file in the home directory; no servers
without home directory or configuration file.  In every other case (a configuration file that cannot be read or is not UTF-8) the run
panics. -/
theorem C44_configured (home : Option Str) (d : Disk) (given : Option Str) :
    (∀ l, getSymServers home d given = .ok l ↔ Configured home d given l) ∧
    ((¬ ∃ l, Configured home d given l) → getSymServers home d given = .panic) := by
  have hconf : ∀ h : Str, Path.push (Path.push h (str% ".dump_syms")) (str% "config") = Inside (Inside h (str% ".dump_syms")) (str% "config") := by
    intro h
    rw [inside_push (by decide), inside_push (by decide)]
  have hcomplete : ∀ l, Configured home d given l → getSymServers home d given = .ok l := by
    intro l h
    cases h with
    | given s _ h => exact congrArg Res.ok (serversIn_iff.mp h)
    | noHome h => subst h; rfl
    | noConfig h e hd =>
      subst e
      simp only [getSymServers, readConfig, hconf, hd]
    | config h raw s _ e hd hs h =>
      subst e
      simp only [getSymServers, readConfig, hconf, hd, hs, serversIn_iff.mp h]
  have hsound : (∃ l, Configured home d given l) ∨ getSymServers home d given = .panic := by
    cases given with
    | some s => exact .inl ⟨_, .given s _ (serversIn_iff.mpr rfl)⟩
    | none =>
      cases home with
      | none => exact .inl ⟨_, .noHome rfl⟩
      | some h =>
        cases hd : d (Inside (Inside h (str% ".dump_syms")) (str% "config")) with
        | none => exact .inl ⟨_, .noConfig h rfl hd⟩
        | some n =>
          match n, hd with
          | .file b true, hd =>
            cases hs : Utf8.decode b with
            | none => right; simp only [getSymServers, readConfig, hconf, hd, hs]
            | some s => exact .inl ⟨_, .config h b s _ rfl hd hs (serversIn_iff.mpr rfl)⟩
          | .file b false, hd => right; simp only [getSymServers, readConfig, hconf, hd]
          | .dir es, hd => right; simp only [getSymServers, readConfig, hconf, hd]
  refine ⟨fun l => ⟨fun h => ?_, hcomplete l⟩, fun h => hsound.resolve_left h⟩
  rcases hsound with ⟨l', h'⟩ | h'
  · rw [hcomplete l' h'] at h
    cases h
    exact h'
  · rw [h'] at h
    cases h

end Cache

namespace Dumper

/-- **C61, by id.** With an id, the file given is what a search for the given name and that id finds, and the path itself is not looked
at; it is an error when the search finds nothing. -/
theorem C61_by_id (env : Env) (config : Config) (id : Str) (path filename : Str) (w : Cache.World)
    (h : config.debugId = some id ∨ config.debugId = none ∧ config.codeId = some id) {servers : Option (List Cache.Server)}
    (hc : Cache.Configured env.home w.disk config.symbolServer servers) (hn : ProperComp filename) (hi : ProperComp id)
    (hd : ∀ q es, w.disk q = some (.dir es) → ∀ e ∈ es, ProperComp e)
    (hroom : ∀ u st raw p, env.net.get u = some (st, raw) → raw.length ≤ env.net.room p)
    (har : ∀ js, ∀ j ∈ env.net.arrivals js, j ∈ js) :
    (∀ b w', getFromId env config path filename w = (.ok b, w') ↔ Cache.Search env.net filename id servers w (some b) w') ∧
    (∀ w', (∃ m, getFromId env config path filename w = (.err m, w')) ↔ Cache.Search env.net filename id servers w none w') := by
  have hs := ((Cache.C44_configured _ _ _).1 _).mpr hc
  obtain ⟨hiff, hpan⟩ := Cache.C80_search_partial env.net filename id servers w hn hi hd hroom har
  have hid : config.debugId.or config.codeId = some id := by
    rcases h with h | ⟨h1, h2⟩
    · rw [h]; rfl
    · rw [h1, h2]; rfl
  unfold getFromId
  rw [hid]
  simp only [hs]
  by_cases hx : ∃ x w', Cache.Search env.net filename id servers w x w'
  · obtain ⟨x, w', hx⟩ := hx
    have e := (hiff x w').mpr hx
    constructor
    · intro b w2
      rw [← hiff, e]
      cases x <;> simp
    · intro w2
      rw [← hiff, e]
      cases x <;> simp
  · have hp := hpan hx
    constructor
    · intro b w2
      rw [hp]
      constructor
      · intro h; cases h
      · intro h; exact absurd ⟨_, _, h⟩ hx
    · intro w2
      rw [hp]
      constructor
      · rintro ⟨m, h⟩; cases h
      · intro h; exact absurd ⟨_, _, h⟩ hx

theorem afterLast_winPath (s : Str) : AfterLast '\\' s (winPathFileName s) := winPathFileName_spec s

/-- **C81, one direction**: when this is what a file is dumped from, the module is made of it, and the state is as described. -/
theorem C81_complete (env : Env) {buf : Bytes} {pre filename : Str} (arch : Str) (symbolServer : Option Str) {w w' : Cache.World}
    (hp : DirPart pre) (hn : ProperComp filename) (hsane : Sane env w.disk) (hpe : SanePe env buf)
    {o : ObjInput} {name : Str} {pe : Option ObjInput} {peName : Option Str} {platform : Platform} {opts : Bool}
    (h : DumpedFrom env buf (pre ++ filename) filename arch symbolServer w o name pe peName platform opts w')
    (mapping : Option (List Mapping.Generator)) (inlines : Bool) :
    getObjectInfo env buf (pre ++ filename) filename mapping arch symbolServer inlines w =
      (fromObject env o name pe peName platform (if opts then mapping else none) (inlines && opts), w') := by
  have hpath : Usable (pre ++ filename) := .inr ⟨pre, filename, rfl, hp, hn⟩
  unfold getObjectInfo
  cases h with
  | elf hk h => simp only [hk, fromElf, h, if_true, Bool.and_true]
  | machoOnly hk h => simp only [hk, C56_single env h, if_true, Bool.and_true]
  | machoOf before after hk h hs ha hb => simp only [hk, C56_several env h hs ha hb, if_true, Bool.and_true]
  | pdb hk h hf =>
    have := ((WinUtils.C43_pe_of_pdb env.net.cab (seenPe env.parsers) w.disk o.debugId hsane.dirs hp hn).1 _).mpr hf
    simp only [hk, getPdbObjectInfo, h]
    rw [show parsePe env.parsers = seenPe env.parsers from rfl, this]
    simp only [Res.bind_ok, fromPdb, if_true, Bool.and_true]
  | pdbPe pe peBuf peName rec hk h hf hp' =>
    have := ((WinUtils.C43_pe_of_pdb env.net.cab (seenPe env.parsers) w.disk o.debugId hsane.dirs hp hn).1 _).mpr hf
    simp only [hk, getPdbObjectInfo, h]
    rw [show parsePe env.parsers = seenPe env.parsers from rfl, this]
    simp only [Res.bind_ok, hp', fromPdb, if_true, Bool.and_true]
  | pePdb pe pdbBuf _ rec servers fs _ hk hp' hs hf h hl =>
    obtain ⟨k1, k2⟩ := hpe pe rec hp'
    have hseen : seenPe env.parsers buf = some ⟨pe.debugId, rec⟩ := by unfold seenPe; rw [hp']; rfl
    have := ((WinUtils.C58_source_partial env.net (seenPe env.parsers) env.cwd (pre ++ filename) buf servers w hseen hpath hsane.cwd k2 k1
      hsane.dirs hsane.room hsane.arrivals).1 _ w').mpr ⟨_, hf, rfl⟩
    simp only [hk, getPePdbObjectInfo, ((Cache.C44_configured _ _ _).1 _).mpr hs]
    rw [show parsePe env.parsers = seenPe env.parsers from rfl, this]
    simp only [Option.map_some, h, fromPdb, hp', if_true, Bool.and_true]
    cases hr : fromObject env o name (some pe) (some filename) .win mapping inlines with
    | ok i => rfl
    | panic => rfl
    | err m =>
      have := ObjectInfo.fromObject_err_iff.mp hr
      rw [hl] at this
      cases this
  | pe _ rec servers found _ hk hp' hs hf hno hname =>
    obtain ⟨k1, k2⟩ := hpe o rec hp'
    have hseen : seenPe env.parsers buf = some ⟨o.debugId, rec⟩ := by unfold seenPe; rw [hp']; rfl
    have := ((WinUtils.C58_source_partial env.net (seenPe env.parsers) env.cwd (pre ++ filename) buf servers w hseen hpath hsane.cwd k2 k1
      hsane.dirs hsane.room hsane.arrivals).1 _ w').mpr ⟨_, hf, rfl⟩
    have hname : winPathFileName (rec.getD filename) = name := (afterLast_winPath _).unique hname
    have halone : getPeObjectInfo env buf filename = fromObject env o name none (some filename) .win none false := by
      simp only [getPeObjectInfo, hp', fromPe, hname]
    simp only [hk, getPePdbObjectInfo, ((Cache.C44_configured _ _ _).1 _).mpr hs]
    rw [show parsePe env.parsers = seenPe env.parsers from rfl, this]
    cases found with
    | none => simp [halone]
    | some x =>
      obtain ⟨b, n⟩ := x
      simp only [Option.map_some]
      cases hpdb : env.parsers.pdb b with
      | error m => simp [halone]
      | ok q =>
        cases hl : q.functions with
        | ok fs => exact absurd hl (hno b n q fs rfl hpdb)
        | error m =>
          have : ∀ a b c d e g, fromObject env q a b c d e g = .err m := fun a b c d e g => ObjectInfo.fromObject_err_iff.mpr hl
          simp [fromPdb, this, halone]

/-- **C81, the other direction**: what is dumped was made so. -/
theorem C81_sound (env : Env) {buf : Bytes} {pre filename : Str} (arch : Str) (symbolServer : Option Str) {w w' : Cache.World}
    (hp : DirPart pre) (hn : ProperComp filename) (hsane : Sane env w.disk) (hpe : SanePe env buf)
    (mapping : Option (List Mapping.Generator)) (inlines : Bool) {info : ObjectInfo}
    (h : getObjectInfo env buf (pre ++ filename) filename mapping arch symbolServer inlines w = (.ok info, w')) :
    ∃ o name pe peName platform opts, DumpedFrom env buf (pre ++ filename) filename arch symbolServer w o name pe peName platform opts w' ∧
      fromObject env o name pe peName platform (if opts then mapping else none) (inlines && opts) = .ok info := by
  suffices ∃ o name pe peName platform opts w'',
      DumpedFrom env buf (pre ++ filename) filename arch symbolServer w o name pe peName platform opts w'' by
    obtain ⟨o, name, pe, peName, platform, opts, w'', hd⟩ := this
    have := C81_complete env arch symbolServer hp hn hsane hpe hd mapping inlines
    rw [h] at this
    have h1 := (Prod.mk.injEq .. ▸ this).1
    have h2 := (Prod.mk.injEq .. ▸ this).2
    subst h2
    exact ⟨o, name, pe, peName, platform, opts, hd, h1.symm⟩
  have hpath : Usable (pre ++ filename) := .inr ⟨pre, filename, rfl, hp, hn⟩
  unfold getObjectInfo at h
  split at h
  · rename_i hk
    simp only [fromElf] at h
    split at h
    · cases h
    · rename_i o ho; exact ⟨_, _, _, _, _, _, _, .elf o hk ho⟩
  · rename_i hk
    simp only [getPdbObjectInfo] at h
    split at h
    · cases h
    · rename_i pdb hpdb
      cases hf : WinUtils.findPeForPdb env.net.cab (parsePe env.parsers) w.disk (pre ++ filename) pdb.debugId with
      | err m => rw [hf] at h; cases h
      | panic => rw [hf] at h; cases h
      | ok r =>
        rw [hf] at h
        have hf' := ((WinUtils.C43_pe_of_pdb env.net.cab (seenPe env.parsers) w.disk pdb.debugId hsane.dirs hp hn).1 _).mp hf
        simp only [Res.bind_ok] at h
        split at h
        · rename_i peName peBuf
          split at h
          · rename_i pe rec hpe'; exact ⟨_, _, _, _, _, _, _, .pdbPe pdb pe peBuf peName rec hk hpdb hf' hpe'⟩
          · cases h
        · exact ⟨_, _, _, _, _, _, _, .pdb pdb hk hpdb hf'⟩
  · rename_i hk
    cases hp' : env.parsers.pe buf with
    | none =>
      exfalso
      simp only [getPePdbObjectInfo] at h
      cases hs : Cache.getSymServers env.home w.disk symbolServer with
      | err m =>
        simp only [hs, getPeObjectInfo, hp'] at h
        cases h
      | panic =>
        simp only [hs] at h
        cases h
      | ok servers =>
        simp only [hs, WinUtils.getPePdbBuf, parsePe, hp', Option.map_none] at h
        cases h
    | some x =>
      obtain ⟨pe, rec⟩ := x
      obtain ⟨k1, k2⟩ := hpe pe rec hp'
      have hseen : seenPe env.parsers buf = some ⟨pe.debugId, rec⟩ := by unfold seenPe; rw [hp']; rfl
      by_cases hs : ∃ l, Cache.Configured env.home w.disk symbolServer l
      · obtain ⟨servers, hs⟩ := hs
        obtain ⟨c1, c2⟩ := WinUtils.C58_source_partial env.net (seenPe env.parsers) env.cwd (pre ++ filename) buf servers w hseen hpath hsane.cwd k2 k1
          hsane.dirs hsane.room hsane.arrivals
        by_cases hf : ∃ y w', WinUtils.PdbFor env.net env.cwd (pre ++ filename) pe.debugId servers w rec y w'
        · obtain ⟨y, w'', hf⟩ := hf
          by_cases hfound : ∃ b n o fs, y = some (b, n) ∧ env.parsers.pdb b = .ok o ∧ o.functions = .ok fs
          · obtain ⟨b, n, o, fs, rfl, h1, h2⟩ := hfound
            exact ⟨_, _, _, _, _, _, _, .pePdb o pe b n rec servers fs w'' hk hp' hs hf h1 h2⟩
          · exact ⟨_, _, _, _, _, _, _, .pe pe _ rec servers y w'' hk hp' hs hf
              (fun b n o fs h1 h2 h3 => hfound ⟨b, n, o, fs, h1, h2, h3⟩) (afterLast_winPath _)⟩
        · exfalso
          have := c2 hf
          simp only [getPePdbObjectInfo, ((Cache.C44_configured _ _ _).1 _).mpr hs] at h
          rw [show parsePe env.parsers = seenPe env.parsers from rfl] at h
          rw [this] at h
          cases h
      · exfalso
        have := (Cache.C44_configured _ _ _).2 hs
        simp only [getPePdbObjectInfo, this] at h
        cases h
  · rename_i hk
    simp only [fromMacho] at h
    split at h
    · cases h
    · rename_i objects ho
      cases hs : selectObject arch objects with
      | err m => rw [hs] at h; cases h
      | panic => rw [hs] at h; cases h
      | ok r =>
        rw [hs] at h
        simp only [Res.bind_ok] at h
        split at h
        · rename_i o
          unfold selectObject at hs
          split at hs
          · cases hs
          · cases hs; exact ⟨_, _, _, _, _, _, _, .machoOnly o hk ho⟩
          · rename_i h1 h2
            simp only [Res.ok.injEq] at hs
            obtain ⟨ha, bs, as, e, hb⟩ := List.find?_eq_some_iff_append.mp hs
            obtain ⟨before, rest, rfl, e1, e2⟩ := List.filterMap_eq_append_iff.mp e
            obtain ⟨skip, x, after, rfl, hskip, hx, e3⟩ := List.filterMap_eq_cons_iff.mp e2
            simp only [id_eq] at hx
            subst hx
            refine ⟨_, _, _, _, _, _, _, .machoOf o (before ++ skip) after hk (by rw [ho]; simp) ?_ (by simpa using ha) ?_⟩
            · by_cases hb : before ++ skip = []
              · right
                rintro rfl
                obtain ⟨rfl, rfl⟩ := List.append_eq_nil_iff.mp hb
                exact h2 o rfl
              · exact .inl hb
            · intro x hx
              rcases List.mem_append.mp hx with hx | hx
              · have : x ∈ bs := by rw [← e1]; simpa using hx
                simpa using hb x this
              · have := hskip _ hx
                simp at this
        · cases h
  · cases h

/-! ## C60: a PE with an unusable PDB -/

/-- **C60 (partial).** When looking for the PDB of a PE ends with no PDB, or with one that cannot be parsed or whose functions cannot be
listed, the PE alone is dumped.  Missing: a search that panics stops the run (`C60_panic_witness`). -/
theorem C60_fallback_partial (env : Env) {buf : Bytes} {pre filename : Str} (hp : DirPart pre) (hn : ProperComp filename)
    {pe : ObjInput} {recorded : Option Str} {servers : Option (List Cache.Server)} {found : Option (Bytes × Str)} {w w' : Cache.World}
    (symbolServer : Option Str) (hsane : Sane env w.disk) (hpe : SanePe env buf)
    (hk : env.parsers.peek buf = .pe) (hp' : env.parsers.pe buf = some (pe, recorded))
    (hs : Cache.Configured env.home w.disk symbolServer servers)
    (hf : WinUtils.PdbFor env.net env.cwd (pre ++ filename) pe.debugId servers w recorded found w')
    (hno : ∀ b n o fs, found = some (b, n) → env.parsers.pdb b = .ok o → o.functions ≠ .ok fs)
    (mapping : Option (List Mapping.Generator)) (arch : Str) (inlines : Bool) :
    ∃ name, AfterLast '\\' (recorded.getD filename) name ∧
      getObjectInfo env buf (pre ++ filename) filename mapping arch symbolServer inlines w =
        (fromObject env pe name none (some filename) .win none false, w') := by
  refine ⟨_, afterLast_winPath _, ?_⟩
  have := C81_complete env arch symbolServer hp hn hsane hpe
    (.pe pe _ recorded servers found w' hk hp' hs hf hno (afterLast_winPath _)) mapping inlines
  rw [this, Bool.and_false]
  rfl

/-! ## C81 for a run on one file -/

theorem search_dirs {net : Cache.Net} {name id : Str} {servers : Option (List Cache.Server)} {w w' : Cache.World} {x : Option Bytes}
    (h : Cache.Search net name id servers w x w') {q : Str} {es : List Str} (hd : w'.disk q = some (.dir es)) : w.disk q = some (.dir es) := by
  cases h with
  | noName => exact hd
  | noServers => exact hd
  | cached => exact hd
  | nowhere => exact hd
  | failed => exact hd
  | refused => exact hd
  | fetched => exact hd
  | stored =>
    simp only [Disk.write] at hd
    split at hd
    · cases hd
    · exact hd

theorem contents_sane {env : Env} {config : Config} {path filename : Str} {w w' : Cache.World} {b : Bytes}
    (h : Contents env config path filename w b w') (hs : Sane env w.disk) : Sane env w'.disk := by
  cases h with
  | byPath => exact hs
  | byId id servers _ _ h1 h2 h3 => exact ⟨fun q es hq => hs.dirs q es (search_dirs h3 hq), hs.room, hs.arrivals, hs.cwd⟩

/-- What is read is what the run goes on with. -/
theorem contents_iff (env : Env) (config : Config) {pre filename : Str} (w : Cache.World) (hp : DirPart pre) (hn : ProperComp filename)
    (hsane : Sane env w.disk) (hid : ∀ id, config.debugId = some id ∨ config.codeId = some id → ProperComp id) (b : Bytes) (w' : Cache.World) :
    getFromId env config (pre ++ filename) filename w = (.ok b, w') ↔ Contents env config (pre ++ filename) filename w b w' := by
  by_cases h : ∃ id, config.debugId = some id ∨ config.debugId = none ∧ config.codeId = some id
  · obtain ⟨id, h⟩ := h
    have hpid : ProperComp id := hid id (h.imp (fun h => h) (fun h => h.2))
    by_cases hs : ∃ l, Cache.Configured env.home w.disk config.symbolServer l
    · obtain ⟨servers, hs⟩ := hs
      rw [(C61_by_id env config id (pre ++ filename) filename w h hs hn hpid hsane.dirs hsane.room hsane.arrivals).1]
      constructor
      · exact fun hx => .byId id servers b w' h hs hx
      · intro hc
        cases hc with
        | byPath _ h1 h2 => rcases h with h | ⟨_, h⟩ <;> simp_all
        | byId id' servers' _ _ h' hs' hx =>
          obtain rfl : id = id' := by
            rcases h with h | ⟨h0, h⟩ <;> rcases h' with h' | ⟨h0', h'⟩ <;> simp_all
          have e1 := ((Cache.C44_configured _ _ _).1 _).mpr hs
          rw [((Cache.C44_configured _ _ _).1 _).mpr hs'] at e1
          cases e1
          exact hx
    · have hpan := (Cache.C44_configured _ _ _).2 hs
      have hid : config.debugId.or config.codeId = some id := by
        rcases h with h | ⟨h1, h2⟩
        · rw [h]; rfl
        · rw [h1, h2]; rfl
      constructor
      · intro hx
        simp only [getFromId, hid, hpan] at hx
        cases hx
      · intro hc
        cases hc with
        | byPath _ h1 h2 => rcases h with h | ⟨_, h⟩ <;> simp_all
        | byId id' servers' _ _ h' hs' hx => exact absurd ⟨_, hs'⟩ hs
  · have h1 : config.debugId = none := by
      cases hd : config.debugId with
      | none => rfl
      | some id => exact absurd ⟨id, .inl hd⟩ h
    have h2 : config.codeId = none := by
      cases hd : config.codeId with
      | none => rfl
      | some id => exact absurd ⟨id, .inr ⟨h1, hd⟩⟩ h
    rw [getFromId_by_path env config _ _ w h1 h2, Prod.mk.injEq, (C77_read env.net.cab w.disk pre filename hp hn hsane.dirs).1 b]
    constructor
    · rintro ⟨hb, rfl⟩
      exact .byPath b h1 h2 hb
    · intro hc
      cases hc with
      | byPath _ _ _ hb => exact ⟨hb, rfl⟩
      | byId id servers _ _ h' => exact absurd ⟨id, h'⟩ h

/-- **C81**: a run on one file makes the module `info` and leaves the state `w'` exactly when the configuration is usable and `info` is made
of what the contents are dumped from. -/
theorem C81_run (env : Env) (config : Config) {pre filename : Str} (w w' : Cache.World) (hp : DirPart pre) (hn : ProperComp filename)
    (hsane : Sane env w.disk) (hid : ∀ id, config.debugId = some id ∨ config.codeId = some id → ProperComp id)
    (hpe : ∀ b w1, Contents env config (pre ++ filename) filename w b w1 → SanePe env b) (info : ObjectInfo) :
    readSingle env config (pre ++ filename) w = (.ok info, w') ↔
      ∃ b w1 mapping arch o name pe peName platform opts, Contents env config (pre ++ filename) filename w b w1 ∧
        Mapping.new env.map config.mappingVar config.mappingSrc config.mappingDest config.mappingFile = .ok mapping ∧
        env.parsers.arch config.arch = some arch ∧
        DumpedFrom env b (pre ++ filename) filename arch config.symbolServer w1 o name pe peName platform opts w' ∧
        fromObject env o name pe peName platform (if opts then mapping else none) (config.emitInlines && opts) = .ok info := by
  have hprep : ∀ mapping arch, prepare env config = .ok (mapping, arch) ↔
      Mapping.new env.map config.mappingVar config.mappingSrc config.mappingDest config.mappingFile = .ok mapping ∧
      env.parsers.arch config.arch = some arch := by
    intro mapping arch
    unfold prepare
    cases Mapping.new env.map config.mappingVar config.mappingSrc config.mappingDest config.mappingFile with
    | ok m =>
      simp only [Res.bind_ok]
      cases env.parsers.arch config.arch with
      | none => simp
      | some a => simp
    | err m => simp
    | panic => simp
  have hname : Utils.getFilename (pre ++ filename) = .ok filename := by
    unfold Utils.getFilename
    rw [fileName_dirPart hp hn]
  constructor
  · intro h
    unfold readSingle at h
    rw [hname] at h
    simp only at h
    generalize hg : getFromId env config (pre ++ filename) filename w = r at h
    obtain ⟨r, w1⟩ := r
    cases r with
    | err m => cases h
    | panic => cases h
    | ok b =>
      have hc := (contents_iff env config w hp hn hsane hid b w1).mp hg
      simp only at h
      cases hpr : prepare env config with
      | err m => rw [hpr] at h; cases h
      | panic => rw [hpr] at h; cases h
      | ok x =>
        obtain ⟨mapping, arch⟩ := x
        rw [hpr] at h
        obtain ⟨o, name, pe, peName, platform, opts, h1, h2⟩ :=
          C81_sound env arch config.symbolServer hp hn (contents_sane hc hsane) (hpe b w1 hc) mapping config.emitInlines h
        exact ⟨b, w1, mapping, arch, o, name, pe, peName, platform, opts, hc, ((hprep _ _).mp hpr).1, ((hprep _ _).mp hpr).2, h1, h2⟩
  · rintro ⟨b, w1, mapping, arch, o, name, pe, peName, platform, opts, hc, h1, h2, h3, h4⟩
    have hg := (contents_iff env config w hp hn hsane hid b w1).mpr hc
    unfold readSingle
    rw [hname]
    simp only [hg, (hprep _ _).mpr ⟨h1, h2⟩]
    rw [C81_complete env arch config.symbolServer hp hn (contents_sane hc hsane) (hpe b w1 hc) h3 mapping config.emitInlines, h4]

/-! ### Examples -/

/-- A PE, the PDB beside it, and nothing else. -/
def pairWorld : Cache.World := exWorld [(str% "/d/a.dll", .file [3] true), (str% "/d/m.pdb", .file [2] true)]

theorem pairSane : Sane exEnv pairWorld.disk where
  dirs := fun q es h => by
    have : ∀ n, pairWorld.disk q = some n → n = .file [3] true ∨ n = .file [2] true := by
      intro n hn
      simp only [pairWorld, exWorld, WinUtils.diskOf, List.lookup] at hn
      split at hn
      · cases hn; exact .inl rfl
      · split at hn
        · cases hn; exact .inr rfl
        · cases hn
    rcases this _ h with h | h <;> cases h
  room := fun u st raw p h => by cases h
  arrivals := fun js j h => by cases h
  cwd := .inr ⟨str% "/", str% "w", rfl, .inr rfl, by unfold ProperComp; decide⟩

/-- The PDB of the PE is the one beside it (the path recorded in the PE is not there). -/
theorem pair_pdb : WinUtils.PdbFor exEnv.net exEnv.cwd (str% "/d/a.dll") (str% "A1") none pairWorld (some (str% "C:\\x/m.pdb"))
    (some ([2], str% "m.pdb")) pairWorld :=
  .onDisk _ _ _ [str% "C:/x/m.pdb"] (str% "/d/m.pdb") _ [2] rfl
    (.mk (str% "/d/") (str% "/") (str% "m")
      (.inDir (str% "/d") (str% "/") (str% "a.dll") rfl (by decide) (by decide) (by decide) .one (by unfold ProperComp; decide))
      (.root (str% "/") (str% "w") rfl .one (by unfold ProperComp; decide)) (.ext (str% "m") (str% "pdb") (by decide) (by decide)))
    rfl (by rintro q hq ⟨raw, r, h⟩; cases List.mem_singleton.mp hq; cases h) ⟨[2], true, rfl⟩
    ⟨_, str% "/d/", str% "m.pdb", [2], .file [2] rfl, rfl, .inr rfl, by unfold ProperComp; decide, .plain rfl⟩

/-- C81 applied: the PE with a PDB beside it is dumped from the PDB, and with an id from what is searched. -/
example : ∃ info, readSingle exEnv exConfig (str% "/d/" ++ str% "a.dll") pairWorld = (.ok info, pairWorld) ∧
    info.fileName = str% "m.pdb" ∧ info.peName = some (str% "a.dll") ∧ info.symbols ≠ [] := by
  obtain ⟨info, hi, h1, h2, h3⟩ : ∃ info, fromObject exEnv (exObj .pdb (str% "A1") (str% "x86") none) (str% "m.pdb")
      (some (exObj .pe (str% "A1") (str% "x86") none)) (some (str% "a.dll")) .win none false = .ok info ∧
      info.fileName = str% "m.pdb" ∧ info.peName = some (str% "a.dll") ∧ info.symbols ≠ [] := ⟨_, rfl, rfl, rfl, by decide⟩
  refine ⟨info, (C81_run exEnv exConfig pairWorld pairWorld (.inr rfl) (by unfold ProperComp; decide) pairSane ?_ ?_ info).mpr ?_, h1, h2, h3⟩
  · rintro id (h | h) <;> cases h
  · rintro b w1 (⟨_, _, _, p, q, n, raw, hr, e, hq, hn, hf⟩ | ⟨id, _, _, _, h | ⟨_, h⟩⟩)
    · intro pe rec hpe
      have hraw : b = [3] := by
        cases hf with
        | plain =>
          cases hr with
          | file _ h => cases h; rfl
          | bundle es e raw h => cases h
        | packed _ _ _ _ _ _ _ h => cases h
      subst hraw
      cases hpe
      refine ⟨by unfold ProperComp; decide, ?_⟩
      intro r hr
      cases hr
      exact .inr ⟨str% "C:/x/", str% "m.pdb", rfl, .inr rfl, by unfold ProperComp; decide⟩
    · cases h
    · cases h
  · exact ⟨[3], pairWorld, none, str% "x86_64", _, _, _, _, _, true,
      .byPath [3] rfl rfl ⟨_, str% "/d/", str% "a.dll", [3], .file [3] rfl, rfl, .inr rfl, by unfold ProperComp; decide, .plain rfl⟩,
      rfl, rfl, .pePdb _ _ [2] _ _ none _ _ rfl rfl (.noConfig (str% "/home/u") rfl rfl) pair_pdb rfl rfl, hi⟩

/-- The PE of a PDB: the `dll` is another one, the compressed `exe` goes with it. -/
example : WinUtils.PeFor WinUtils.noCab WinUtils.parseEx
    (WinUtils.diskOf [(str% "d/m.dll", .file [80, 2] true), (str% "d/m.ex_", .file [80, 1, 7] true)]) (str% "d/m.pdb") (str% "A1")
    (some (str% "m.exe", [80, 1, 7])) := by
  have hno : ∀ (fs : List (Str × Node)) p, fs.lookup p = none → ¬ IsFile (WinUtils.diskOf fs) p := by
    rintro fs p h ⟨raw, r, h'⟩
    unfold WinUtils.diskOf at h'
    rw [h] at h'
    cases h'
  refine .found (str% "d/") (str% "m.pdb") (str% "m") (WinUtils.peExts.take 3) (str% "ex_") (str% "exe") [] _ rfl (.inr rfl) (by unfold ProperComp; decide)
    (.ext (str% "m") (str% "pdb") (by decide) (by decide)) rfl ?_ ⟨⟨_, _, rfl⟩, ?_, _, rfl, rfl⟩
  · intro e he
    simp only [WinUtils.peExts, List.take_succ_cons, List.take_zero, List.mem_cons, List.not_mem_nil, or_false] at he
    rcases he with rfl | rfl | rfl
    · refine .inr ⟨[80, 2], ⟨_, str% "d/", str% "m.dll", [80, 2], .file _ rfl, rfl, .inr rfl, by unfold ProperComp; decide, .plain rfl⟩, ?_⟩
      intro pe h
      cases h
      decide
    · exact .inl (hno _ _ (by decide))
    · exact .inl (hno _ _ (by decide))
  · exact ⟨_, str% "d/", str% "m.ex_", _, .file _ rfl, rfl, .inr rfl, by unfold ProperComp; decide, .plain rfl⟩

/-- The configuration file in the home directory names the servers. -/
example : Cache.Configured (some (str% "/h")) (WinUtils.diskOf [(str% "/h/.dump_syms/config", .file [115, 114, 118, 42, 97] true)]) none
    (some [⟨none, str% "a"⟩]) :=
  ((Cache.C44_configured _ _ _).1 _).mp (by decide +kernel)

end Dumper
end DumpSyms
