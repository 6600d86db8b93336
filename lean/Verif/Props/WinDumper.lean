import Verif.Model.WinDumper
import Verif.Spec.WinInputs
import Verif.Props.WinCache
/-!
# C112, C113: one file on a Windows machine
-/
namespace DumpSyms
namespace WinHost
open WinPath
open WinUtils (baseName_exists diskOf noCab)
open Dumper (Env Config seenPe parsePe fromElf fromMacho fromPdb fromPe fromObject getPeObjectInfo prepare selectObject winPathFileName afterLast_winPath
  C56_single C56_several)
open Output (FileOutput Out IoEnv writeTo writeTo_fits writeTo_spec holds_receive)

theorem dirOf_aux {a : Str} : ∀ (m : Nat) (d k n : Str), d.length ≤ m → WinAnchored a (d ++ (k ++ n)) → EndsSep d → WinSkip k → WinProper n →
    (d = [] → k = [] ∨ ∃ t x, a = t ++ [x] ∧ winSep x = true) → ∃ dir, WinDirOf (a ++ (d ++ (k ++ n))) dir := by
  intro m
  induction m with
  | zero =>
    intro d k n hm ha _ hk hn h0
    obtain rfl := List.length_eq_zero_iff.mp (Nat.le_zero.mp hm)
    exact ⟨a, .top a k n rfl ha hk (h0 rfl) hn⟩
  | succ m ih =>
    intro d k n hm ha hd hk hn h0
    rcases hd with rfl | ⟨t, x, rfl, hx⟩
    · exact ⟨a, .top a k n rfl ha hk (h0 rfl) hn⟩
    · have e1 : (t ++ [x]) ++ (k ++ n) = t ++ x :: (k ++ n) := by simp
      rw [List.length_append] at hm
      simp only [List.length_cons, List.length_nil] at hm
      by_cases ht : EndsSep t
      · have e2 : (t ++ [x]) ++ (k ++ n) = t ++ ((x :: k) ++ n) := by simp
        rw [e2] at ha ⊢
        refine ih t (x :: k) n (by omega) ha ht (.sep x k hx hk) hn ?_
        rintro rfl
        right
        cases ha with
        | plain _ _ hs => exact absurd ⟨x, k ++ n, rfl, hx⟩ hs
        | rooted y _ hy hs => exact ⟨[], y, rfl, hy⟩
        | drive d _ _ hs => exact absurd ⟨x, k ++ n, rfl, hx⟩ hs
        | driveRooted d y _ _ hy => exact ⟨[d, ':'], y, rfl, hy⟩
        | device p q r y name _ _ _ _ hy _ => exact ⟨p :: q :: '.' :: r :: name, y, by simp, hy⟩
        | share p q r y server name _ _ _ _ hy _ _ _ _ _ _ => exact ⟨p :: q :: (server ++ r :: name), y, by simp, hy⟩
      · have hne : t ≠ [] := fun h => ht (.inl h)
        by_cases hdot : ∃ u y, t = u ++ [y, '.'] ∧ winSep y = true
        · obtain ⟨u, y, rfl, hy⟩ := hdot
          have e2 : ((u ++ [y, '.']) ++ [x]) ++ (k ++ n) = (u ++ [y]) ++ (('.' :: x :: k) ++ n) := by simp
          rw [e2] at ha ⊢
          refine ih (u ++ [y]) ('.' :: x :: k) n (by simp at hm ⊢; omega) ha (.inr ⟨u, y, rfl, hy⟩) (.dot x k hx hk) hn ?_
          intro h
          simp at h
        · by_cases hone : t = ['.'] ∧ ∃ u y, a = u ++ [y] ∧ winSep y = true
          · obtain ⟨rfl, hae⟩ := hone
            have e2 : (['.'] ++ [x]) ++ (k ++ n) = ('.' :: x :: k) ++ n := by simp
            rw [e2] at ha ⊢
            exact ⟨a, .top a ('.' :: x :: k) n rfl ha (.dot x k hx hk) (.inr hae) hn⟩
          · rw [e1] at ha ⊢
            exact ⟨_, .below a t k n x rfl ha hne ht hdot (fun e h => hone ⟨e, h⟩) hx hk hn⟩

/-- Every file has a directory. -/
theorem dirOf_exists {pre n : Str} (hp : WinDirPart pre) (hn : WinProper n) : ∃ dir, WinDirOf (pre ++ n) dir := by
  obtain ⟨a, d, rfl, ha, hd⟩ := hp
  have := dirOf_aux (a := a) d.length d [] n (Nat.le_refl _) (anchored_name ha hd hn) hd .nil hn (fun _ => .inl rfl)
  rw [List.append_assoc]
  exact this

theorem readFile_dir (cab : Cab) (disk : Disk) {pre name : Str} (hp : WinDirPart pre) (hn : WinProper name)
    (hd : ∀ q es, disk q = some (.dir es) → ∀ e ∈ es, WinProper e) :
    (∀ b, readFile cab disk (pre ++ name) = .ok b ↔ PathHolds cab disk (pre ++ name) b) ∧
    ((¬ ∃ b, readFile cab disk (pre ++ name) = .ok b) → readFile cab disk (pre ++ name) = .panic) := by
  obtain ⟨a, d, rfl, ha, he⟩ := hp
  exact readFile_path cab disk (anchored_name ha he hn) (by simp) ⟨a, d, rfl, ha, he⟩ hn hd

theorem getFromId_by_path (env : Env) (config : Config) (path filename : Str) (w : Cache.World) (h1 : config.debugId = none)
    (h2 : config.codeId = none) : getFromId env config path filename w = (readFile env.net.cab w.disk path, w) := by
  unfold getFromId
  rw [h1, h2]
  rfl

/-- With an id, the file given is what a search for the given name and that id finds. -/
theorem fromId_by_id (env : Env) (config : Config) (id : Str) (path filename : Str) (w : Cache.World)
    (h : config.debugId = some id ∨ config.debugId = none ∧ config.codeId = some id) {servers : Option (List Cache.Server)}
    (hc : Configured env.home w.disk config.symbolServer servers) (hn : WinProper filename) (hi : WinProper id)
    (hd : ∀ q es, w.disk q = some (.dir es) → ∀ e ∈ es, WinProper e)
    (hroom : ∀ u st raw p, env.net.get u = some (st, raw) → raw.length ≤ env.net.room p)
    (har : ∀ js, ∀ j ∈ env.net.arrivals js, j ∈ js) (hhome : ∀ h, env.home = some h → PlainDir h)
    (hcs : ∀ ss, servers = some ss → PlainCaches ss) :
    (∀ b w', getFromId env config path filename w = (.ok b, w') ↔ Search env.net filename id servers w (some b) w') ∧
    (∀ w', (∃ m, getFromId env config path filename w = (.err m, w')) ↔ Search env.net filename id servers w none w') := by
  have hs := ((C110_configured _ _ _ hhome).1 _).mpr hc
  obtain ⟨hiff, hpan⟩ := C110_search env.net filename id servers w hn hi hd hroom har hcs
  have hid : config.debugId.or config.codeId = some id := by
    rcases h with h | ⟨h1, h2⟩
    · rw [h]; rfl
    · rw [h1, h2]; rfl
  unfold getFromId
  rw [hid]
  simp only [hs]
  by_cases hx : ∃ x w', Search env.net filename id servers w x w'
  · obtain ⟨x, w', hx⟩ := hx
    have e := (hiff x w').mpr hx
    constructor
    · intro b w2
      rw [← hiff, e]
      cases x <;> simp
    · intro w2
      rw [← hiff, e]
      cases x <;> simp
  · have hp := hpan hx
    constructor
    · intro b w2
      rw [hp]
      constructor
      · intro h; cases h
      · intro h; exact absurd ⟨_, _, h⟩ hx
    · intro w2
      rw [hp]
      constructor
      · rintro ⟨m, h⟩; cases h
      · intro h; exact absurd ⟨_, _, h⟩ hx

/-- **C112, one direction**: when this is what a file is dumped from, the module is made of it, and the state is as described. -/
theorem C112_complete (env : Env) {buf : Bytes} {pre filename : Str} (arch : Str) (symbolServer : Option Str) {w w' : Cache.World}
    (hp : WinDirPart pre) (hn : WinProper filename) (hsane : Sane env w.disk) (hpe : SanePe env buf) (hca : SaneCaches env symbolServer w.disk)
    {o : ObjInput} {name : Str} {pe : Option ObjInput} {peName : Option Str} {platform : Platform} {opts : Bool}
    (h : DumpedFrom env buf pre filename arch symbolServer w o name pe peName platform opts w')
    (mapping : Option (List Mapping.Generator)) (inlines : Bool) :
    getObjectInfo env buf (pre ++ filename) filename mapping arch symbolServer inlines w =
      (fromObject env o name pe peName platform (if opts then mapping else none) (inlines && opts), w') := by
  have hpath := dirOf_exists hp hn
  unfold getObjectInfo
  cases h with
  | elf hk h => simp only [hk, fromElf, h, if_true, Bool.and_true]
  | machoOnly hk h => simp only [hk, C56_single env h, if_true, Bool.and_true]
  | machoOf before after hk h hs ha hb => simp only [hk, C56_several env h hs ha hb, if_true, Bool.and_true]
  | pdb stem hk h hb hf =>
    have := ((C108_pe_of_pdb env.net.cab (seenPe env.parsers) w.disk o.debugId hp hn hb).1 _).mpr hf
    simp only [hk, getPdbObjectInfo, h]
    rw [show parsePe env.parsers = seenPe env.parsers from rfl, this]
    simp only [Res.bind_ok, fromPdb, if_true, Bool.and_true]
  | pdbPe pe peBuf stem peName rec hk h hb hf hp' =>
    have := ((C108_pe_of_pdb env.net.cab (seenPe env.parsers) w.disk o.debugId hp hn hb).1 _).mpr hf
    simp only [hk, getPdbObjectInfo, h]
    rw [show parsePe env.parsers = seenPe env.parsers from rfl, this]
    simp only [Res.bind_ok, hp', fromPdb, if_true, Bool.and_true]
  | pePdb pe pdbBuf _ rec servers fs _ hk hp' hs hf h hl =>
    obtain ⟨k1, k2⟩ := hpe pe rec hp'
    have hcs : ∀ ss, servers = some ss → PlainCaches ss := by
      rintro ss rfl
      exact hca ss hs
    have hseen : seenPe env.parsers buf = some ⟨pe.debugId, rec⟩ := by unfold seenPe; rw [hp']; rfl
    have := ((C111_source env.net (seenPe env.parsers) env.cwd (pre ++ filename) buf servers w hseen hpath hsane.cwd k2 k1
      hsane.dirs hsane.room hsane.arrivals hcs).1 _ w').mpr ⟨_, hf, rfl⟩
    simp only [hk, getPePdbObjectInfo, ((C110_configured _ _ _ hsane.home).1 _).mpr hs]
    rw [show parsePe env.parsers = seenPe env.parsers from rfl, this]
    simp only [Option.map_some, h, fromPdb, hp', if_true, Bool.and_true]
    cases hr : fromObject env o name (some pe) (some filename) .win mapping inlines with
    | ok i => rfl
    | panic => rfl
    | err m =>
      have := ObjectInfo.fromObject_err_iff.mp hr
      rw [hl] at this
      cases this
  | pe _ rec servers found _ hk hp' hs hf hno hname =>
    obtain ⟨k1, k2⟩ := hpe o rec hp'
    have hcs : ∀ ss, servers = some ss → PlainCaches ss := by
      rintro ss rfl
      exact hca ss hs
    have hseen : seenPe env.parsers buf = some ⟨o.debugId, rec⟩ := by unfold seenPe; rw [hp']; rfl
    have := ((C111_source env.net (seenPe env.parsers) env.cwd (pre ++ filename) buf servers w hseen hpath hsane.cwd k2 k1
      hsane.dirs hsane.room hsane.arrivals hcs).1 _ w').mpr ⟨_, hf, rfl⟩
    have hname : winPathFileName (rec.getD filename) = name := (afterLast_winPath _).unique hname
    have halone : getPeObjectInfo env buf filename = fromObject env o name none (some filename) .win none false := by
      simp only [getPeObjectInfo, hp', fromPe, hname]
    simp only [hk, getPePdbObjectInfo, ((C110_configured _ _ _ hsane.home).1 _).mpr hs]
    rw [show parsePe env.parsers = seenPe env.parsers from rfl, this]
    cases found with
    | none => simp [halone]
    | some x =>
      obtain ⟨b, n⟩ := x
      simp only [Option.map_some]
      cases hpdb : env.parsers.pdb b with
      | error m => simp [halone]
      | ok q =>
        cases hl : q.functions with
        | ok fs => exact absurd hl (hno b n q fs rfl hpdb)
        | error m =>
          have : ∀ a b c d e g, fromObject env q a b c d e g = .err m := fun a b c d e g => ObjectInfo.fromObject_err_iff.mpr hl
          simp [fromPdb, this, halone]

/-- **C112, the other direction**: what is dumped was made so. -/
theorem C112_sound (env : Env) {buf : Bytes} {pre filename : Str} (arch : Str) (symbolServer : Option Str) {w w' : Cache.World}
    (hp : WinDirPart pre) (hn : WinProper filename) (hsane : Sane env w.disk) (hpe : SanePe env buf) (hca : SaneCaches env symbolServer w.disk)
    (mapping : Option (List Mapping.Generator)) (inlines : Bool) {info : ObjectInfo}
    (h : getObjectInfo env buf (pre ++ filename) filename mapping arch symbolServer inlines w = (.ok info, w')) :
    ∃ o name pe peName platform opts, DumpedFrom env buf pre filename arch symbolServer w o name pe peName platform opts w' ∧
      fromObject env o name pe peName platform (if opts then mapping else none) (inlines && opts) = .ok info := by
  suffices ∃ o name pe peName platform opts w'',
      DumpedFrom env buf pre filename arch symbolServer w o name pe peName platform opts w'' by
    obtain ⟨o, name, pe, peName, platform, opts, w'', hd⟩ := this
    have := C112_complete env arch symbolServer hp hn hsane hpe hca hd mapping inlines
    rw [h] at this
    have h1 := (Prod.mk.injEq .. ▸ this).1
    have h2 := (Prod.mk.injEq .. ▸ this).2
    subst h2
    exact ⟨o, name, pe, peName, platform, opts, hd, h1.symm⟩
  have hpath := dirOf_exists hp hn
  obtain ⟨stem, hb⟩ := baseName_exists filename
  unfold getObjectInfo at h
  split at h
  · rename_i hk
    simp only [fromElf] at h
    split at h
    · cases h
    · rename_i o ho; exact ⟨_, _, _, _, _, _, _, .elf o hk ho⟩
  · rename_i hk
    simp only [getPdbObjectInfo] at h
    split at h
    · cases h
    · rename_i pdb hpdb
      cases hf : findPeForPdb env.net.cab (parsePe env.parsers) w.disk (pre ++ filename) pdb.debugId with
      | err m => rw [hf] at h; cases h
      | panic => rw [hf] at h; cases h
      | ok r =>
        rw [hf] at h
        have hf' := ((C108_pe_of_pdb env.net.cab (seenPe env.parsers) w.disk pdb.debugId hp hn hb).1 _).mp hf
        simp only [Res.bind_ok] at h
        split at h
        · rename_i peName peBuf
          split at h
          · rename_i pe rec hpe'; exact ⟨_, _, _, _, _, _, _, .pdbPe pdb pe peBuf stem peName rec hk hpdb hb hf' hpe'⟩
          · cases h
        · exact ⟨_, _, _, _, _, _, _, .pdb pdb stem hk hpdb hb hf'⟩
  · rename_i hk
    cases hp' : env.parsers.pe buf with
    | none =>
      exfalso
      simp only [getPePdbObjectInfo] at h
      cases hs : getSymServers env.home w.disk symbolServer with
      | err m =>
        simp only [hs, getPeObjectInfo, hp'] at h
        cases h
      | panic =>
        simp only [hs] at h
        cases h
      | ok servers =>
        simp only [hs, getPePdbBuf, parsePe, hp', Option.map_none] at h
        cases h
    | some x =>
      obtain ⟨pe, rec⟩ := x
      obtain ⟨k1, k2⟩ := hpe pe rec hp'
      have hseen : seenPe env.parsers buf = some ⟨pe.debugId, rec⟩ := by unfold seenPe; rw [hp']; rfl
      by_cases hs : ∃ l, Configured env.home w.disk symbolServer l
      · obtain ⟨servers, hs⟩ := hs
        have hcs : ∀ ss, servers = some ss → PlainCaches ss := by
          rintro ss rfl
          exact hca ss hs
        obtain ⟨c1, c2⟩ := C111_source env.net (seenPe env.parsers) env.cwd (pre ++ filename) buf servers w hseen hpath hsane.cwd k2 k1
          hsane.dirs hsane.room hsane.arrivals hcs
        by_cases hf : ∃ y w', PdbFor env.net env.cwd (pre ++ filename) pe.debugId servers w rec y w'
        · obtain ⟨y, w'', hf⟩ := hf
          by_cases hfound : ∃ b n o fs, y = some (b, n) ∧ env.parsers.pdb b = .ok o ∧ o.functions = .ok fs
          · obtain ⟨b, n, o, fs, rfl, h1, h2⟩ := hfound
            exact ⟨_, _, _, _, _, _, _, .pePdb o pe b n rec servers fs w'' hk hp' hs hf h1 h2⟩
          · exact ⟨_, _, _, _, _, _, _, .pe pe _ rec servers y w'' hk hp' hs hf
              (fun b n o fs h1 h2 h3 => hfound ⟨b, n, o, fs, h1, h2, h3⟩) (afterLast_winPath _)⟩
        · exfalso
          have := c2 hf
          simp only [getPePdbObjectInfo, ((C110_configured _ _ _ hsane.home).1 _).mpr hs] at h
          rw [show parsePe env.parsers = seenPe env.parsers from rfl] at h
          rw [this] at h
          cases h
      · exfalso
        have := (C110_configured _ _ _ hsane.home).2 hs
        simp only [getPePdbObjectInfo, this] at h
        cases h
  · rename_i hk
    simp only [fromMacho] at h
    split at h
    · cases h
    · rename_i objects ho
      cases hs : selectObject arch objects with
      | err m => rw [hs] at h; cases h
      | panic => rw [hs] at h; cases h
      | ok r =>
        rw [hs] at h
        simp only [Res.bind_ok] at h
        split at h
        · rename_i o
          unfold selectObject at hs
          split at hs
          · cases hs
          · cases hs; exact ⟨_, _, _, _, _, _, _, .machoOnly o hk ho⟩
          · rename_i h1 h2
            simp only [Res.ok.injEq] at hs
            obtain ⟨ha, bs, as, e, hb⟩ := List.find?_eq_some_iff_append.mp hs
            obtain ⟨before, rest, rfl, e1, e2⟩ := List.filterMap_eq_append_iff.mp e
            obtain ⟨skip, x, after, rfl, hskip, hx, e3⟩ := List.filterMap_eq_cons_iff.mp e2
            simp only [id_eq] at hx
            subst hx
            refine ⟨_, _, _, _, _, _, _, .machoOf o (before ++ skip) after hk (by rw [ho]; simp) ?_ (by simpa using ha) ?_⟩
            · by_cases hb : before ++ skip = []
              · right
                rintro rfl
                obtain ⟨rfl, rfl⟩ := List.append_eq_nil_iff.mp hb
                exact h2 o rfl
              · exact .inl hb
            · intro x hx
              rcases List.mem_append.mp hx with hx | hx
              · have : x ∈ bs := by rw [← e1]; simpa using hx
                simpa using hb x this
              · have := hskip _ hx
                simp at this
        · cases h
  · cases h

theorem search_dirs {net : Cache.Net} {name id : Str} {servers : Option (List Cache.Server)} {w w' : Cache.World} {x : Option Bytes}
    (h : Search net name id servers w x w') {q : Str} {es : List Str} (hd : w'.disk q = some (.dir es)) : w.disk q = some (.dir es) := by
  cases h with
  | noName => exact hd
  | noServers => exact hd
  | cached => exact hd
  | nowhere => exact hd
  | failed => exact hd
  | refused => exact hd
  | fetched => exact hd
  | stored =>
    simp only [Disk.write] at hd
    split at hd
    · cases hd
    · exact hd

theorem contents_sane {env : Env} {config : Config} {path filename : Str} {w w' : Cache.World} {b : Bytes}
    (h : Contents env config path filename w b w') (hs : Sane env w.disk) : Sane env w'.disk := by
  cases h with
  | byPath => exact hs
  | byId id servers _ _ h1 h2 h3 => exact ⟨fun q es hq => hs.dirs q es (search_dirs h3 hq), hs.room, hs.arrivals, hs.cwd, hs.home⟩

/-- What is read is what the run goes on with. -/
theorem contents_iff (env : Env) (config : Config) {pre filename : Str} (w : Cache.World) (hp : WinDirPart pre) (hn : WinProper filename)
    (hsane : Sane env w.disk) (hid : ∀ id, config.debugId = some id ∨ config.codeId = some id → WinProper id)
    (hca : SaneCaches env config.symbolServer w.disk) (b : Bytes) (w' : Cache.World) :
    getFromId env config (pre ++ filename) filename w = (.ok b, w') ↔ Contents env config (pre ++ filename) filename w b w' := by
  by_cases h : ∃ id, config.debugId = some id ∨ config.debugId = none ∧ config.codeId = some id
  · obtain ⟨id, h⟩ := h
    have hpid : WinProper id := hid id (h.imp (fun h => h) (fun h => h.2))
    by_cases hs : ∃ l, Configured env.home w.disk config.symbolServer l
    · obtain ⟨servers, hs⟩ := hs
      rw [(fromId_by_id env config id (pre ++ filename) filename w h hs hn hpid hsane.dirs hsane.room hsane.arrivals hsane.home
        (by rintro ss rfl; exact hca ss hs)).1]
      constructor
      · exact fun hx => .byId id servers b w' h hs hx
      · intro hc
        cases hc with
        | byPath _ h1 h2 => rcases h with h | ⟨_, h⟩ <;> simp_all
        | byId id' servers' _ _ h' hs' hx =>
          obtain rfl : id = id' := by
            rcases h with h | ⟨h0, h⟩ <;> rcases h' with h' | ⟨h0', h'⟩ <;> simp_all
          have e1 := ((C110_configured _ _ _ hsane.home).1 _).mpr hs
          rw [((C110_configured _ _ _ hsane.home).1 _).mpr hs'] at e1
          cases e1
          exact hx
    · have hpan := (C110_configured _ _ _ hsane.home).2 hs
      have hid : config.debugId.or config.codeId = some id := by
        rcases h with h | ⟨h1, h2⟩
        · rw [h]; rfl
        · rw [h1, h2]; rfl
      constructor
      · intro hx
        simp only [getFromId, hid, hpan] at hx
        cases hx
      · intro hc
        cases hc with
        | byPath _ h1 h2 => rcases h with h | ⟨_, h⟩ <;> simp_all
        | byId id' servers' _ _ h' hs' hx => exact absurd ⟨_, hs'⟩ hs
  · have h1 : config.debugId = none := by
      cases hd : config.debugId with
      | none => rfl
      | some id => exact absurd ⟨id, .inl hd⟩ h
    have h2 : config.codeId = none := by
      cases hd : config.codeId with
      | none => rfl
      | some id => exact absurd ⟨id, .inr ⟨h1, hd⟩⟩ h
    rw [getFromId_by_path env config _ _ w h1 h2, Prod.mk.injEq, (readFile_dir env.net.cab w.disk hp hn hsane.dirs).1 b]
    constructor
    · rintro ⟨hb, rfl⟩
      exact .byPath b h1 h2 hb
    · intro hc
      cases hc with
      | byPath _ _ _ hb => exact ⟨hb, rfl⟩
      | byId id servers _ _ h' => exact absurd ⟨id, h'⟩ h

/-- **C112**: a run on one file makes the module `info` and leaves the state `w'` exactly when the configuration is usable and `info` is made
of what the contents are dumped from. -/
theorem C112_run (env : Env) (config : Config) {pre filename : Str} (w w' : Cache.World) (hp : WinDirPart pre) (hn : WinProper filename)
    (hsane : Sane env w.disk) (hid : ∀ id, config.debugId = some id ∨ config.codeId = some id → WinProper id)
    (hca : SaneCaches env config.symbolServer w.disk)
    (hpe : ∀ b w1, Contents env config (pre ++ filename) filename w b w1 → SanePe env b ∧ SaneCaches env config.symbolServer w1.disk) (info : ObjectInfo) :
    readSingle env config (pre ++ filename) w = (.ok info, w') ↔
      ∃ b w1 mapping arch o name pe peName platform opts, Contents env config (pre ++ filename) filename w b w1 ∧
        Mapping.new env.map config.mappingVar config.mappingSrc config.mappingDest config.mappingFile = .ok mapping ∧
        env.parsers.arch config.arch = some arch ∧
        DumpedFrom env b pre filename arch config.symbolServer w1 o name pe peName platform opts w' ∧
        fromObject env o name pe peName platform (if opts then mapping else none) (config.emitInlines && opts) = .ok info := by
  have hprep : ∀ mapping arch, prepare env config = .ok (mapping, arch) ↔
      Mapping.new env.map config.mappingVar config.mappingSrc config.mappingDest config.mappingFile = .ok mapping ∧
      env.parsers.arch config.arch = some arch := by
    intro mapping arch
    unfold prepare
    cases Mapping.new env.map config.mappingVar config.mappingSrc config.mappingDest config.mappingFile with
    | ok m =>
      simp only [Res.bind_ok]
      cases env.parsers.arch config.arch with
      | none => simp
      | some a => simp
    | err m => simp
    | panic => simp
  have hname : getFilename (pre ++ filename) = .ok filename := by
    unfold getFilename
    rw [fileName_dir hp hn]
  constructor
  · intro h
    unfold readSingle at h
    rw [hname] at h
    simp only at h
    generalize hg : getFromId env config (pre ++ filename) filename w = r at h
    obtain ⟨r, w1⟩ := r
    cases r with
    | err m => cases h
    | panic => cases h
    | ok b =>
      have hc := (contents_iff env config w hp hn hsane hid hca b w1).mp hg
      simp only at h
      cases hpr : prepare env config with
      | err m => rw [hpr] at h; cases h
      | panic => rw [hpr] at h; cases h
      | ok x =>
        obtain ⟨mapping, arch⟩ := x
        rw [hpr] at h
        obtain ⟨o, name, pe, peName, platform, opts, h1, h2⟩ :=
          C112_sound env arch config.symbolServer hp hn (contents_sane hc hsane) (hpe b w1 hc).1 (hpe b w1 hc).2 mapping config.emitInlines h
        exact ⟨b, w1, mapping, arch, o, name, pe, peName, platform, opts, hc, ((hprep _ _).mp hpr).1, ((hprep _ _).mp hpr).2, h1, h2⟩
  · rintro ⟨b, w1, mapping, arch, o, name, pe, peName, platform, opts, hc, h1, h2, h3, h4⟩
    have hg := (contents_iff env config w hp hn hsane hid hca b w1).mpr hc
    unfold readSingle
    rw [hname]
    simp only [hg, (hprep _ _).mpr ⟨h1, h2⟩]
    rw [C112_complete env arch config.symbolServer hp hn (contents_sane hc hsane) (hpe b w1 hc).1 (hpe b w1 hc).2 h3 mapping config.emitInlines, h4]


/-! ## C113: writing the symbol file -/

theorem plain_not_verbatim {c : Str} (h : PlainDir c) : verbatim c = false := by
  obtain ⟨_, _, _, h⟩ := h
  obtain ⟨q, h1, _, h2, _⟩ := parts_facts h
  unfold verbatim
  rw [h1]
  exact h2

theorem push_nil (d : Str) : push [] d = d := by
  have hv : verbatim [] = false := by decide
  have hl : prefixLen [] = 0 := by decide
  unfold push
  simp only [hv, hl]
  split
  · rfl
  · split
    · rename_i h; simp at h
    · split
      · rfl
      · split
        · rename_i h; simp at h
        · rfl

/-- The path in the store, put together as in a cache. -/
theorem storePath {dir name id : Str} (hd : PlainDir dir) (hn : WinProper name) (hi : WinProper id) :
    ∃ d f, StoreDirName name d ∧ StoreFileName name f ∧ WinProper d ∧ WinProper f ∧
      push dir (getPathForSym name id) = cachePath dir d id f := by
  obtain ⟨d, f, h1, h2, h3, h4, h5, h6, _⟩ := C104_store_partial dir name id hn hi
  have hv := plain_not_verbatim hd
  refine ⟨d, f, h1, h2, h3, h4, ?_⟩
  rcases (cachePath_parts hd h3 hi h4).1 with ⟨k, e⟩ | ⟨k, e⟩
  · rw [h5 hv k, e]
  · rw [h6 hv k, e]

theorem inStore_iff {dir name id p : Str} (hd : PlainDir dir) (hn : WinProper name) (hi : WinProper id) :
    InStore dir name id p ↔ p = push dir (getPathForSym name id) := by
  obtain ⟨d, f, h1, h2, h3, h4, e⟩ := storePath hd hn hi
  have hin := (cachePath_parts hd h3 hi h4).1
  rw [← e] at hin
  constructor
  · rintro ⟨d', f', k1, k2, k3⟩
    rw [storeDir_unique k1 h1, storeFile_unique k2 h2] at k3
    exact inside_unique k3 hin
  · rintro rfl
    exact ⟨d, f, h1, h2, hin⟩

theorem store_parent {dir name id : Str} (hd : PlainDir dir) (hn : WinProper name) (hi : WinProper id) :
    ∃ d, parent (push dir (getPathForSym name id)) = some d := by
  obtain ⟨d, f, _, _, h3, h4, e⟩ := storePath hd hn hi
  obtain ⟨_, a, u, e2, ha, hu⟩ := cachePath_parts hd h3 hi h4
  rw [e, e2]
  exact ⟨_, cachePath_parent ha hu hi h4⟩

theorem symStorePath_some {o : ObjectInfo} {dir p : Str} (h : symStorePath o dir = some p) :
    dir ≠ [] ∧ p = push dir (getPathForSym o.fileName o.debugId) := by
  unfold symStorePath at h
  split at h
  · cases h
  · rename_i hd; cases h; exact ⟨hd, by rw [push_nil]⟩

theorem symStorePath_of_ne {o : ObjectInfo} {dir : Str} (h : dir ≠ []) :
    symStorePath o dir = some (push dir (getPathForSym o.fileName o.debugId)) := by
  unfold symStorePath
  rw [if_neg h, push_nil]

theorem dest_store {out : Out} {o : ObjectInfo} {p : Str} (h : (destinations out o).2 = some p) :
    ∃ dir, (out = .store dir ∨ ∃ fo, out = .fileAndStore fo dir) ∧ dir ≠ [] ∧ p = push dir (getPathForSym o.fileName o.debugId) := by
  cases out with
  | file f => cases h
  | store dir => exact ⟨dir, .inl rfl, symStorePath_some h⟩
  | fileAndStore f dir => exact ⟨dir, .inr ⟨f, rfl⟩, symStorePath_some h⟩

theorem requested_iff {out : Out} {o : ObjectInfo} (hs : PlainStore out) (hn : WinProper o.fileName) (hi : WinProper o.debugId) {fo : FileOutput} :
    Requested out o fo ↔ (destinations out o).1 = some fo ∨ ∃ p, (destinations out o).2 = some p ∧ fo = .path p := by
  constructor
  · intro h
    cases h with
    | file h =>
      rcases h with rfl | ⟨d, rfl⟩
      · exact .inl rfl
      · exact .inl rfl
    | store h hd hp =>
      rw [inStore_iff (hs _ h hd) hn hi] at hp
      subst hp
      rcases h with rfl | ⟨d, rfl⟩
      · exact .inr ⟨_, symStorePath_of_ne hd, rfl⟩
      · exact .inr ⟨_, symStorePath_of_ne hd, rfl⟩
  · rintro (h | ⟨p, h, rfl⟩)
    · cases out with
      | file f => cases h; exact .file (.inl rfl)
      | store dir => cases h
      | fileAndStore f dir => cases h; exact .file (.inr ⟨_, rfl⟩)
    · obtain ⟨dir, h1, h2, h3⟩ := dest_store h
      exact .store h1 h2 ((inStore_iff (hs _ h1 h2) hn hi).mpr h3)

/-- **C113, without unwind data**: with check-cfi nothing is created or written, and an error is reported. -/
theorem C113_no_cfi (io : IoEnv) (extra : Option (List Str)) (out : Out) (o : ObjectInfo) (w : Output.World) (h : o.stack = []) :
    store io extra out true o w = (.err (str% "No CFI data"), w) := by
  simp [store, ObjectInfo.hasStack, h]

theorem store_complete (io : IoEnv) (extra : Option (List Str)) (out : Out) (checkCfi : Bool) (o : ObjectInfo) (w : Output.World)
    {t : Str} (hs : PlainStore out) (hn : WinProper o.fileName) (hi : WinProper o.debugId) (hcfi : checkCfi = true → o.stack ≠ [])
    (ht : o.display extra = .ok t) (hch : (io.chunks t).flatten = Utf8.encode t) (hm : ∀ d, io.mkdirs d = true)
    (hc : ∀ p, Requested out o (.path p) → io.create p = true)
    (hr : ∀ fo, Requested out o fo → (Utf8.encode t).length ≤ io.room fo) :
    ∃ w', store io extra out checkCfi o w = (.ok (), w') ∧
      ∀ fo, Requested out o fo → Output.Holds w w' fo (Utf8.encode t) := by
  unfold store
  rw [if_neg (by
    intro h
    simp only [ObjectInfo.hasStack, Bool.not_not, Bool.and_eq_true, List.isEmpty_iff] at h
    exact hcfi h.1 h.2)]
  simp only [ht]
  have hstore : ∀ p, (destinations out o).2 = some p → ∃ d, writeStore io (.ok t) p w =
      (.ok (), ({ w with dirs := d :: w.dirs } : Output.World).receive (.path p) (Utf8.encode t)) := by
    intro p hp
    have hreq : Requested out o (.path p) := (requested_iff hs hn hi).mpr (.inr ⟨p, hp, rfl⟩)
    obtain ⟨d, hd⟩ : ∃ d, parent p = some d := by
      obtain ⟨dir, h1, h2, rfl⟩ := dest_store hp
      exact store_parent (hs _ h1 h2) hn hi
    refine ⟨d, ?_⟩
    unfold writeStore
    rw [hd]
    simp only [hm d, if_true]
    exact writeTo_fits _ (by rintro q hq; cases hq; exact hc p hreq) hch (hr _ hreq)
  cases h2 : (destinations out o).2 with
  | none =>
    simp only
    cases h1 : (destinations out o).1 with
    | none =>
      refine ⟨w, rfl, fun fo hf => ?_⟩
      rcases (requested_iff hs hn hi).mp hf with h | ⟨p, h, _⟩
      · rw [h1] at h; cases h
      · rw [h2] at h; cases h
    | some fo =>
      have hreq : Requested out o fo := (requested_iff hs hn hi).mpr (.inl h1)
      refine ⟨_, writeTo_fits w (fun p hp => hc p (hp ▸ hreq)) hch (hr _ hreq), fun fo' hf => ?_⟩
      rcases (requested_iff hs hn hi).mp hf with h | ⟨p, h, _⟩
      · rw [h1] at h; cases h
        exact holds_receive w w fo _ rfl rfl
      · rw [h2] at h; cases h
  | some p =>
    obtain ⟨d, hst⟩ := hstore p h2
    simp only [hst]
    cases h1 : (destinations out o).1 with
    | none =>
      refine ⟨_, rfl, fun fo hf => ?_⟩
      rcases (requested_iff hs hn hi).mp hf with h | ⟨q, h, rfl⟩
      · rw [h1] at h; cases h
      · rw [h2] at h; cases h
        simp [Output.Holds, Output.World.receive]
    | some fo =>
      have hreq : Requested out o fo := (requested_iff hs hn hi).mpr (.inl h1)
      refine ⟨_, writeTo_fits _ (fun p hp => hc p (hp ▸ hreq)) hch (hr _ hreq), fun fo' hf => ?_⟩
      rcases (requested_iff hs hn hi).mp hf with h | ⟨q, h, rfl⟩
      · rw [h1] at h; cases h
        exact holds_receive w _ fo _ rfl rfl
      · rw [h2] at h; cases h
        cases fo with
        | path q =>
          simp only [Output.Holds, Output.World.receive]
          split <;> simp
        | stdout => simp [Output.Holds, Output.World.receive]
        | stderr => simp [Output.Holds, Output.World.receive]

theorem store_others (io : IoEnv) (extra : Option (List Str)) (out : Out) (checkCfi : Bool) (o : ObjectInfo)
    (w : Output.World) (hs : PlainStore out) (hn : WinProper o.fileName) (hi : WinProper o.debugId) (p : Str) (hp : ¬ Requested out o (.path p)) :
    (store io extra out checkCfi o w).2.files p = w.files p := by
  have hto : ∀ (text : Res Str) (fo : FileOutput) (w' : Output.World), Requested out o fo →
      (writeTo io text fo w').2.files p = w'.files p := by
    intro text fo w' hf
    have hrec : ∀ b, (w'.receive fo b).files p = w'.files p := by
      intro b
      cases fo with
      | path q =>
        simp only [Output.World.receive]
        rw [if_neg]
        rintro rfl
        exact hp hf
      | stdout => rfl
      | stderr => rfl
    unfold writeTo
    split
    · split
      · exact hrec _
      · exact hrec _
      · exact hrec _
    · rfl
  have hst : ∀ (text : Res Str) (q : Str), (destinations out o).2 = some q →
      (writeStore io text q w).2.files p = w.files p := by
    intro text q hq
    unfold writeStore
    split
    · rfl
    · split
      · exact hto _ _ _ ((requested_iff hs hn hi).mpr (.inr ⟨q, hq, rfl⟩))
      · rfl
  unfold store
  split
  · rfl
  · simp only
    cases h2 : (destinations out o).2 with
    | none =>
      simp only
      cases h1 : (destinations out o).1 with
      | none => rfl
      | some fo => exact hto _ _ _ ((requested_iff hs hn hi).mpr (.inl h1))
    | some q =>
      simp only
      have hq := hst (o.display extra) q h2
      split
      · cases h1 : (destinations out o).1 with
        | none => exact hq
        | some fo => exact (hto _ _ _ ((requested_iff hs hn hi).mpr (.inl h1))).trans hq
      · exact hq

theorem store_success (io : IoEnv) (extra : Option (List Str)) (out : Out) (checkCfi : Bool) (o : ObjectInfo)
    (w : Output.World) {t : Str} (ht : o.display extra = .ok t) (hch : (io.chunks t).flatten = Utf8.encode t)
    (hs : PlainStore out) (hn : WinProper o.fileName) (hi : WinProper o.debugId)
    (hne : ∀ p d, out = .fileAndStore (.path p) d → ¬ InStore d o.fileName o.debugId p)
    (h : (store io extra out checkCfi o w).1 = .ok ()) {fo : FileOutput} (hf : Requested out o fo) :
    Output.Holds w (store io extra out checkCfi o w).2 fo ((Utf8.encode t).take (io.room fo)) ∧
      (Utf8.encode t).length ≤ io.room fo + io.capacity := by
  unfold store at h ⊢
  split at h
  · cases h
  · rename_i hcfi
    rw [if_neg hcfi]
    simp only [ht] at h ⊢
    have hok : ∀ (fo : FileOutput) (w' : Output.World), (writeTo io (.ok t) fo w').1 = .ok () →
        (writeTo io (.ok t) fo w').2 = w'.receive fo ((Utf8.encode t).take (io.room fo)) ∧
        (Utf8.encode t).length ≤ io.room fo + io.capacity := by
      intro fo w' h
      rcases writeTo_spec fo w' hch with ⟨h1, _⟩ | ⟨h1, h2, _⟩
      · rw [h1] at h; cases h
      · exact ⟨h1, h2 h⟩
    cases h2 : (destinations out o).2 with
    | none =>
      simp only [h2] at h ⊢
      rcases (requested_iff hs hn hi).mp hf with h1 | ⟨p, h', _⟩
      · simp only [h1] at h ⊢
        obtain ⟨e, hl⟩ := hok fo w h
        rw [e]
        exact ⟨holds_receive w w fo _ rfl rfl, hl⟩
      · rw [h2] at h'; cases h'
    | some p =>
      simp only [h2] at h ⊢
      cases hst : (writeStore io (.ok t) p w).1 with
      | err _ => simp only [hst] at h; cases h
      | panic => simp only [hst] at h; cases h
      | ok u =>
        simp only [hst] at h ⊢
        obtain ⟨d, hw, hl⟩ : ∃ d, (writeStore io (.ok t) p w).2 = ({ w with dirs := d :: w.dirs } : Output.World).receive (.path p)
            ((Utf8.encode t).take (io.room (.path p))) ∧ (Utf8.encode t).length ≤ io.room (.path p) + io.capacity := by
          unfold writeStore at hst ⊢
          split at hst
          · cases hst
          · rename_i d hd
            split at hst
            · rename_i hm
              rw [if_pos hm]
              obtain ⟨e, hl⟩ := hok (.path p) { w with dirs := d :: w.dirs } hst
              exact ⟨d, e, hl⟩
            · cases hst
        rw [hw] at h ⊢
        cases h1 : (destinations out o).1 with
        | none =>
          simp only [h1] at h ⊢
          rcases (requested_iff hs hn hi).mp hf with h' | ⟨q, h', rfl⟩
          · rw [h1] at h'; cases h'
          · rw [h2] at h'; cases h'
            exact ⟨by simp [Output.Holds, Output.World.receive], hl⟩
        | some f =>
          simp only [h1] at h ⊢
          obtain ⟨e, hl'⟩ := hok f _ h
          rw [e]
          rcases (requested_iff hs hn hi).mp hf with h' | ⟨q, h', rfl⟩
          · rw [h1] at h'; cases h'
            exact ⟨holds_receive w _ _ _ rfl rfl, hl'⟩
          · rw [h2] at h'; cases h'
            refine ⟨?_, hl⟩
            cases f with
            | path q =>
              simp only [Output.Holds, Output.World.receive]
              rw [if_neg]
              · simp
              · rintro rfl
                obtain ⟨dir, k1, k2, k3⟩ := dest_store h2
                cases out with
                | file f => cases h2
                | store dir => cases h1
                | fileAndStore f dir' =>
                  cases h1
                  rcases k1 with k1 | ⟨fo, k1⟩
                  · cases k1
                  · cases k1
                    exact hne _ _ rfl ((inStore_iff (hs _ (.inr ⟨_, rfl⟩) k2) hn hi).mpr k3)
            | stdout => simp [Output.Holds, Output.World.receive]
            | stderr => simp [Output.Holds, Output.World.receive]

/-- **C113, failures.** If the input cannot be turned into a module, the run fails and nothing is written. -/
theorem C113_nothing_written (env : Env) (extra : Option (List Str)) (config : Config) (path : Str) (w : Cache.World)
    (out : Output.World) (h : ∀ o, (readSingle env config path w).1 ≠ .ok o) :
    (singleFile env extra config path w out).1 ≠ .ok () ∧ (singleFile env extra config path w out).2.2 = out := by
  unfold singleFile
  cases hr : (readSingle env config path w).1 with
  | ok o => exact absurd hr (h o)
  | err m => simp [hr]
  | panic => simp [hr]

/-- **C113, success (partial).** A successful run has made a module of the input; if the module has a name Windows allows, every destination asked for
holds the beginning of its text, of which at most a buffer is missing, and no other file has changed.  Missing: the failure to write the last buffer is
ignored (C30); other names (`C113_escape_witness`, `C113_crash_witness`). -/
theorem C113_success_partial (env : Env) (extra : Option (List Str)) (config : Config) (path : Str) (w : Cache.World)
    (out : Output.World) (hs : PlainStore config.output) (h : (singleFile env extra config path w out).1 = .ok ()) :
    ∃ o, (readSingle env config path w).1 = .ok o ∧ (config.checkCfi = true → o.stack ≠ []) ∧
      (WinProper o.fileName → WinProper o.debugId → ∀ t, o.display extra = .ok t → (env.io.chunks t).flatten = Utf8.encode t →
        (∀ p d, config.output = .fileAndStore (.path p) d → ¬ InStore d o.fileName o.debugId p) →
        (∀ fo, Requested config.output o fo →
          Output.Holds out (singleFile env extra config path w out).2.2 fo ((Utf8.encode t).take (env.io.room fo)) ∧
          (Utf8.encode t).length ≤ env.io.room fo + env.io.capacity) ∧
        ∀ p, ¬ Requested config.output o (.path p) → (singleFile env extra config path w out).2.2.files p = out.files p) := by
  unfold singleFile at h ⊢
  simp only [] at h ⊢
  cases ho : (readSingle env config path w).1 with
  | err m => rw [ho] at h; cases h
  | panic => rw [ho] at h; cases h
  | ok o =>
    rw [ho] at h
    simp only [] at h ⊢
    refine ⟨o, rfl, ?_, ?_⟩
    · intro hc hst
      rw [hc, C113_no_cfi env.io extra config.output o out hst] at h
      cases h
    · intro hn hi t ht hch hne
      exact ⟨fun fo hf => store_success env.io extra config.output config.checkCfi o out ht hch hs hn hi hne h hf,
        fun p hp => store_others env.io extra config.output config.checkCfi o out hs hn hi p hp⟩

/-- **C113, when everything works (partial)** and the module has a name Windows allows, every destination asked for receives the complete text and the
run succeeds. -/
theorem C113_complete_partial (env : Env) (extra : Option (List Str)) (config : Config) (path : Str) (w : Cache.World) (out : Output.World)
    {o : ObjectInfo} {t : Str} (ho : (readSingle env config path w).1 = .ok o) (hcfi : config.checkCfi = true → o.stack ≠ [])
    (hs : PlainStore config.output) (hn : WinProper o.fileName) (hi : WinProper o.debugId)
    (ht : o.display extra = .ok t) (hch : (env.io.chunks t).flatten = Utf8.encode t) (hm : ∀ d, env.io.mkdirs d = true)
    (hc : ∀ p, env.io.create p = true) (hr : ∀ fo, (Utf8.encode t).length ≤ env.io.room fo) :
    (singleFile env extra config path w out).1 = .ok () ∧
      ∀ fo, Requested config.output o fo →
        Output.Holds out (singleFile env extra config path w out).2.2 fo (Utf8.encode t) := by
  obtain ⟨w', h1, h2⟩ := store_complete env.io extra config.output config.checkCfi o out hs hn hi hcfi ht hch hm
    (fun p _ => hc p) (fun fo _ => hr fo)
  unfold singleFile
  simp only [ho, h1]
  exact ⟨trivial, h2⟩

/-- **C113, names.** The module of a PE or PDB has a name Windows allows, unless it is a PE dumped alone whose recorded path ends in nothing, in `.` or `..`
or in a name that starts with a drive. -/
theorem C113_names {env : Env} {buf : Bytes} {pre filename arch : Str} {symbolServer : Option Str} {w w' : Cache.World} {o : ObjInput} {name : Str}
    {pe : Option ObjInput} {peName : Option Str} {platform : Platform} {opts : Bool} {mapping : Option (List Mapping.Generator)} {inlines : Bool}
    {info : ObjectInfo} (hn : WinProper filename) (h : DumpedFrom env buf pre filename arch symbolServer w o name pe peName platform opts w')
    (hf : o.format ≠ .elf ∧ o.format ≠ .machO) (hi : fromObject env o name pe peName platform mapping inlines = .ok info) :
    WinProper info.fileName ∨ opts = false ∧ NoSep info.fileName ∧
      (info.fileName = [] ∨ info.fileName = ['.'] ∨ info.fileName = ['.', '.'] ∨ DriveLike info.fileName) := by
  have hname : info.fileName = ObjectInfo.fileNameOnly name := by
    rw [(Dumper.fromObject_fileName hi).1]
    unfold ObjectInfo.moduleName
    rw [if_neg (fun h => h.elim hf.1 hf.2)]
  have hkeep : WinProper name → WinProper info.fileName := by
    intro hp
    rw [hname]
    obtain ⟨pre, e, h⟩ := Dumper.fileNameOnly_suffix name
    rcases h with rfl | h
    · rw [List.nil_append] at e
      rw [← e]
      exact hp
    · refine absurd ?_ hp.2.1.1
      rw [e]
      exact List.mem_append_left _ (List.mem_of_getLast? h)
  cases h with
  | elf => exact .inl (hkeep hn)
  | machoOnly => exact .inl (hkeep hn)
  | machoOf => exact .inl (hkeep hn)
  | pdb => exact .inl (hkeep hn)
  | pdbPe => exact .inl (hkeep hn)
  | pePdb =>
    rename_i hfor
    left
    apply hkeep
    generalize hx : some (_, name) = x at hfor
    cases hfor with
    | unnamed => cases hx
    | noFile => cases hx
    | onDisk => cases hx; assumption
    | searched pre n ps y =>
      cases y with
      | none => cases hx
      | some b => cases hx; assumption
  | pe =>
    rename_i hl _
    by_cases hw : WinProper info.fileName
    · exact .inl hw
    · right
      have hns : NoSep info.fileName := by
        rw [hname]
        refine ⟨Dumper.fileNameOnly_no_slash name, fun h => hl.1 ?_⟩
        obtain ⟨pre, e, _⟩ := Dumper.fileNameOnly_suffix name
        rw [e]
        exact List.mem_append_right _ h
      refine ⟨rfl, hns, ?_⟩
      apply Classical.byContradiction
      intro hno
      simp only [not_or] at hno
      exact hw ⟨hno.1, hns, hno.2.1, hno.2.2.1, hno.2.2.2⟩

/-! ## Samples and witnesses -/

/-- As the sample of `Verif.Props.Dumper`, on a Windows machine, with two more files: an ELF whose recorded name is a share, and a PE whose PDB has a
name that starts with a drive. -/
def winEnv : Env :=
  { Dumper.exEnv with
    os := .windows
    cwd := str% "C:\\w"
    home := some (str% "C:\\Users\\u")
    parsers := { Dumper.exParsers with
      elf := fun b => match b with
        | [1, 1] => .ok (Dumper.exObj .elf (str% "E1") (str% "x86_64") (some (str% "\\\\s\\x")))
        | _ => Dumper.exParsers.elf b
      pe := fun b => match b with
        | [3, 2] => some (Dumper.exObj .pe (str% "A1") (str% "x86") none, some (str% "C:\\x\\D:y.pdb"))
        | _ => Dumper.exParsers.pe b } }

/-- **C113 is false**: an ELF that records `\\s\x` as its name makes the run crash when the symbol file is stored, as its place in the store is the bare share
`\\s\x.sym`, which is in no directory. -/
theorem C113_crash_witness :
    Dumper.headOf (readSingle winEnv Dumper.exConfig (str% "C:\\d\\a.so") (Dumper.exWorld [(str% "C:\\d\\a.so", .file [1, 1] true)])).1 =
      .ok (str% "\\\\s\\x", str% "E1", str% "x86_64", .linux) ∧
    (singleFile winEnv none { Dumper.exConfig with output := .store (str% "C:\\store") } (str% "C:\\d\\a.so")
      (Dumper.exWorld [(str% "C:\\d\\a.so", .file [1, 1] true)]) Output.emptyWorld).1 = .panic := by
  refine ⟨by decide, by decide +kernel⟩

/-- **C113 is false**: a PE that says its PDB is `C:\x\D:y.pdb` is stored outside the store directory, on another drive. -/
theorem C113_escape_witness :
    Dumper.headOf (readSingle winEnv Dumper.exConfig (str% "C:\\d\\a.dll") (Dumper.exWorld [(str% "C:\\d\\a.dll", .file [3, 2] true)])).1 =
      .ok (str% "D:y.pdb", str% "A1", str% "x86", .win) ∧
    (singleFile winEnv none { Dumper.exConfig with output := .store (str% "C:\\store") } (str% "C:\\d\\a.dll")
      (Dumper.exWorld [(str% "C:\\d\\a.dll", .file [3, 2] true)]) Output.emptyWorld).1 = .ok () ∧
    ((singleFile winEnv none { Dumper.exConfig with output := .store (str% "C:\\store") } (str% "C:\\d\\a.dll")
      (Dumper.exWorld [(str% "C:\\d\\a.dll", .file [3, 2] true)]) Output.emptyWorld).2.2.files (str% "D:y.sym")).isSome = true := by
  refine ⟨by decide, by decide +kernel, by decide +kernel⟩

/-- A PE, the PDB beside it, and nothing else. -/
def winPair : Cache.World := Dumper.exWorld [(str% "C:\\w\\a.dll", .file [3] true), (str% "C:\\w\\m.pdb", .file [2] true)]

theorem winPair_sane : Sane winEnv winPair.disk where
  dirs := fun q es h => by
    have : ∀ n, winPair.disk q = some n → n = .file [3] true ∨ n = .file [2] true := by
      intro n hn
      simp only [winPair, Dumper.exWorld, diskOf, List.lookup] at hn
      split at hn
      · cases hn; exact .inl rfl
      · split at hn
        · cases hn; exact .inr rfl
        · cases hn
    rcases this _ h with h | h <;> cases h
  room := fun u st raw p h => by cases h
  arrivals := fun js j h => by cases h
  cwd := ⟨str% "C:\\", .top (str% "C:\\") [] (str% "w") rfl (.driveRooted 'C' '\\' _ (by decide) (by decide)) .nil (.inl rfl) (winProper_of (by decide))⟩
  home := fun h e => by cases e; exact ⟨_, _, _, .driveRooted 'C' '\\' _ (by decide) (by decide)⟩

theorem winPair_caches : SaneCaches winEnv none winPair.disk := by
  intro ss h
  have := ((C110_configured winEnv.home winPair.disk none winPair_sane.home).1 _).mpr h
  rw [show getSymServers winEnv.home winPair.disk none = .ok none by decide +kernel] at this
  cases this

/-- C112 applied: the PE with a PDB beside it is dumped from the PDB, whose name the module gets. -/
example : ∃ info, readSingle winEnv Dumper.exConfig (str% "C:\\w\\" ++ str% "a.dll") winPair = (.ok info, winPair) ∧
    info.fileName = str% "m.pdb" ∧ info.peName = some (str% "a.dll") ∧ info.symbols ≠ [] ∧
    ∃ o name pe peName platform opts, DumpedFrom winEnv [3] (str% "C:\\w\\") (str% "a.dll") (str% "x86_64") none winPair o name pe peName platform opts winPair ∧
      fromObject winEnv o name pe peName platform none false = .ok info := by
  obtain ⟨info, hi, h1, h2, h3⟩ : ∃ info, readSingle winEnv Dumper.exConfig (str% "C:\\w\\" ++ str% "a.dll") winPair = (.ok info, winPair) ∧
      info.fileName = str% "m.pdb" ∧ info.peName = some (str% "a.dll") ∧ info.symbols ≠ [] := ⟨_, rfl, rfl, rfl, by decide⟩
  have hids : ∀ id, Dumper.exConfig.debugId = some id ∨ Dumper.exConfig.codeId = some id → WinProper id := by rintro id (h | h) <;> cases h
  have hcont : ∀ b w1, Contents winEnv Dumper.exConfig (str% "C:\\w\\" ++ str% "a.dll") (str% "a.dll") winPair b w1 → b = [3] ∧ w1 = winPair := by
    intro b w1 h
    have := (contents_iff winEnv Dumper.exConfig winPair ex_part_drive (winProper_of (by decide)) winPair_sane hids winPair_caches b w1).mpr h
    cases this
    exact ⟨rfl, rfl⟩
  refine ⟨info, hi, h1, h2, h3, ?_⟩
  have hrun := C112_run winEnv Dumper.exConfig (filename := str% "a.dll") winPair winPair ex_part_drive (winProper_of (by decide)) winPair_sane hids winPair_caches
    (fun b w1 h => by
      obtain ⟨rfl, rfl⟩ := hcont b w1 h
      refine ⟨?_, winPair_caches⟩
      intro pe rec hp
      cases hp
      refine ⟨winProper_of (by decide), ?_⟩
      intro r hr
      cases hr
      exact .inr ⟨str% "C:\\x/", str% "m.pdb", rfl,
        ⟨str% "C:\\", str% "x/", rfl, .driveRooted 'C' '\\' _ (by decide) (by decide), .inr ⟨str% "x", '/', rfl, by decide⟩⟩, winProper_of (by decide)⟩) info
  obtain ⟨b, w1, mapping, arch, o, name, pe, peName, platform, opts, hc, hm, ha, hd, hf⟩ := hrun.mp hi
  obtain ⟨rfl, rfl⟩ := hcont b w1 hc
  cases ha
  cases hm
  refine ⟨o, name, pe, peName, platform, opts, hd, ?_⟩
  simpa [Dumper.exConfig] using hf

theorem winStore_plain : PlainStore (.store (str% "C:\\store")) := by
  rintro dir (h | ⟨fo, h⟩) _
  · cases h; exact ⟨_, _, _, .driveRooted 'C' '\\' _ (by decide) (by decide)⟩
  · cases h

/-- C113 applied: the symbol file of the PE goes to the store under the name of the PDB. -/
example : ∃ info t, (readSingle winEnv Dumper.exConfig (str% "C:\\w\\a.dll") winPair).1 = .ok info ∧ info.display none = .ok t ∧ 20 ≤ t.length ∧
    (singleFile winEnv none { Dumper.exConfig with output := .store (str% "C:\\store") } (str% "C:\\w\\a.dll") winPair Output.emptyWorld).1 = .ok () ∧
    (singleFile winEnv none { Dumper.exConfig with output := .store (str% "C:\\store") } (str% "C:\\w\\a.dll") winPair Output.emptyWorld).2.2.files
      (str% "C:\\store\\m.pdb\\A1\\m.sym") = some (Utf8.encode t) ∧
    (singleFile winEnv none { Dumper.exConfig with output := .store (str% "C:\\store") } (str% "C:\\w\\a.dll") winPair Output.emptyWorld).2.2.files
      (str% "C:\\m.sym") = none := by
  obtain ⟨info, t, h1, h2, h3, h4, h5, h6⟩ : ∃ info t, (readSingle winEnv Dumper.exConfig (str% "C:\\w\\a.dll") winPair).1 = .ok info ∧
      info.display none = .ok t ∧ 20 ≤ t.length ∧ info.fileName = str% "m.pdb" ∧ info.debugId = str% "A1" ∧ (Utf8.encode t).length ≤ 1000000 :=
    ⟨_, _, rfl, rfl, by decide, by decide, by decide, by decide +kernel⟩
  have hn : WinProper info.fileName := by rw [h4]; exact winProper_of (by decide)
  have hi : WinProper info.debugId := by rw [h5]; exact winProper_of (by decide)
  have hr : (readSingle winEnv { Dumper.exConfig with output := .store (str% "C:\\store") } (str% "C:\\w\\a.dll") winPair).1 = .ok info := h1
  have hch : (winEnv.io.chunks t).flatten = Utf8.encode t := by simp [winEnv, Dumper.exEnv, Output.goodDisk, Output.fullDisk]
  obtain ⟨k1, k2⟩ := C113_complete_partial winEnv none { Dumper.exConfig with output := .store (str% "C:\\store") } (str% "C:\\w\\a.dll") winPair
    Output.emptyWorld hr (fun h => by cases h) winStore_plain hn hi h2 hch (fun _ => rfl) (fun _ => rfl) (fun _ => h6)
  obtain ⟨o, j1, -, j2⟩ := C113_success_partial winEnv none { Dumper.exConfig with output := .store (str% "C:\\store") } (str% "C:\\w\\a.dll") winPair
    Output.emptyWorld winStore_plain k1
  rw [hr] at j1
  cases j1
  refine ⟨info, t, h1, h2, h3, k1, ?_, ?_⟩
  · refine k2 (.path (str% "C:\\store\\m.pdb\\A1\\m.sym")) (.store (.inl rfl) (by decide) ?_)
    rw [inStore_iff (winStore_plain _ (.inl rfl) (by decide)) hn hi, h4, h5]
    decide
  · rw [(j2 hn hi t h2 hch (fun p d h => by cases h)).2]
    · rfl
    · intro h
      cases h with
      | file h => rcases h with h | ⟨d, h⟩ <;> cases h
      | store h hd hp =>
        rcases h with h | ⟨d, h⟩ <;> cases h
        rw [inStore_iff (winStore_plain _ (.inl rfl) (by decide)) hn hi, h4, h5] at hp
        revert hp
        decide

/-- C113 applied to a PE that says its PDB is `C:\x\..`: it is dumped alone, under the name `..`. -/
example : ∃ info, fromObject winEnv (Dumper.exObj .pe (str% "A1") (str% "x86") none) (str% "..") none (some (str% "a.dll")) .win none false = .ok info ∧
    info.fileName = str% ".." ∧
    (WinProper info.fileName ∨ false = false ∧ NoSep info.fileName ∧
      (info.fileName = [] ∨ info.fileName = ['.'] ∨ info.fileName = ['.', '.'] ∨ DriveLike info.fileName)) := by
  obtain ⟨info, h, e⟩ : ∃ info, fromObject winEnv (Dumper.exObj .pe (str% "A1") (str% "x86") none) (str% "..") none (some (str% "a.dll")) .win none false =
    .ok info ∧ info.fileName = str% ".." := ⟨_, rfl, rfl⟩
  refine ⟨info, h, e, C113_names (env := winEnv) (buf := [3, 1]) (pre := str% "C:\\w\\") (filename := str% "a.dll") (arch := str% "x86") (symbolServer := none)
    (w := winPair) (w' := winPair) (winProper_of (by decide)) (.pe _ _ (some (str% "C:\\x\\..")) none none _ rfl rfl
      (.noConfig (str% "C:\\Users\\u") (str% "C:\\Users\\u\\.dump_syms\\config") rfl ?_ rfl) (.noFile _ (by decide)) (by intro b n o fs h; cases h)
      ⟨by decide, str% "C:\\x\\", rfl, .inr rfl⟩) ⟨by decide, by decide⟩ h⟩
  refine .inr ⟨?_, rfl⟩
  rintro (h | ⟨s, x, h, hx⟩ | ⟨x, h, _⟩)
  · cases h
  · have h2 : str% "C:\\Users\\" ++ ['u'] = s ++ [x] := h
    obtain ⟨-, rfl⟩ := snoc_inj h2
    rcases hx with hx | hx <;> revert hx <;> decide
  · cases h

end WinHost
end DumpSyms
