import Verif.Proof.WinAgain
import Verif.Props.Again
/-!
# C127: running again on a Windows machine
-/
namespace DumpSyms
namespace WinHost
open WinPath
open Cache (Net World Server Job)
open Dumper (Env Config fromObject prepare)
open Output (Out IoEnv Does writeTo does_nothing does_writeTo does_then)

theorem does_writeStore (io : IoEnv) (text : Res Str) (p : Str) : ∃ r patch so se, Does (writeStore io text p) r patch so se := by
  unfold writeStore
  cases parent p with
  | none => exact ⟨_, _, _, _, does_nothing .panic⟩
  | some d =>
    by_cases hm : io.mkdirs d = true
    · obtain ⟨r, patch, so, se, h⟩ := does_writeTo io text (.path p)
      refine ⟨r, patch, so, se, fun w => ?_⟩
      simp only [if_pos hm]
      exact h { w with dirs := d :: w.dirs }
    · exact ⟨_, _, _, _, fun w => by simp only [if_neg hm]; exact does_nothing (.err (str% "create_dir_all")) w⟩

theorem does_store (io : IoEnv) (extra : Option (List Str)) (out : Out) (checkCfi : Bool) (o : ObjectInfo) :
    ∃ r patch so se, Does (store io extra out checkCfi o) r patch so se := by
  by_cases hc : (checkCfi && !o.hasStack) = true
  · exact ⟨_, fun _ => none, [], [], fun w => by unfold store; rw [if_pos hc]; exact does_nothing _ w⟩
  · cases hd1 : (destinations out o).1 with
    | none =>
      cases hd2 : (destinations out o).2 with
      | none => exact ⟨_, _, _, _, fun w => by simp only [store, if_neg hc, hd1, hd2]; exact does_nothing (.ok ()) w⟩
      | some p =>
        obtain ⟨_, _, _, _, h1⟩ := does_writeStore io (o.display extra) p
        obtain ⟨_, _, _, _, h⟩ := does_then h1 (does_nothing (.ok ()))
        exact ⟨_, _, _, _, fun w => by simp only [store, if_neg hc, hd1, hd2]; exact h w⟩
    | some fo =>
      obtain ⟨_, _, _, _, h2⟩ := does_writeTo io (o.display extra) fo
      cases hd2 : (destinations out o).2 with
      | none => exact ⟨_, _, _, _, fun w => by simp only [store, if_neg hc, hd1, hd2]; exact h2 w⟩
      | some p =>
        obtain ⟨_, _, _, _, h1⟩ := does_writeStore io (o.display extra) p
        obtain ⟨_, _, _, _, h⟩ := does_then h1 h2
        exact ⟨_, _, _, _, fun w => by simp only [store, if_neg hc, hd1, hd2]; exact h w⟩

/-! ### Reading again -/

/-- What looking for a PDB does to the disk: nothing, or what a search does. -/
theorem pdbFor_disk {net : Net} {cwd path id : Str} {servers : Option (List Server)} {w w1 : World} {recorded : Option Str}
    {y : Option (Bytes × Str)} (h : PdbFor net cwd path id servers w recorded y w1) :
    w1 = w ∨ ∃ name x, WinProper name ∧ Search net name id servers w x w1 := by
  cases h with
  | unnamed => exact .inl rfl
  | noFile => exact .inl rfl
  | onDisk => exact .inl rfl
  | searched pre name ps x _ h1 h2 h3 h4 h5 => exact .inr ⟨name, x, h2, h5⟩

theorem dumped_disk {env : Env} {buf : Bytes} {pre filename arch : Str} {server : Option Str} {w w1 : World} {o : ObjInput} {name : Str}
    {pe : Option ObjInput} {peName : Option Str} {platform : Platform} {opts : Bool} (hpe : SanePe env buf)
    (h : DumpedFrom env buf pre filename arch server w o name pe peName platform opts w1) :
    w1 = w ∨ ∃ servers name id x, Configured env.home w.disk server servers ∧ WinProper name ∧ WinProper id ∧
      Search env.net name id servers w x w1 := by
  cases h with
  | elf => exact .inl rfl
  | machoOnly => exact .inl rfl
  | machoOf => exact .inl rfl
  | pdb => exact .inl rfl
  | pdbPe => exact .inl rfl
  | pePdb =>
    rename_i pe pdbBuf recorded servers fs h1 h2 h3 h4 h5 h6
    rcases pdbFor_disk h6 with e | ⟨n, x, hn, hs⟩
    · exact .inl e
    · exact .inr ⟨_, n, _, x, by assumption, hn, (hpe _ _ (by assumption)).1, hs⟩
  | pe =>
    rename_i recorded servers found h1 h2 h3 h4 h5 h6
    rcases pdbFor_disk (by assumption) with e | ⟨n, x, hn, hs⟩
    · exact .inl e
    · exact .inr ⟨_, n, _, x, by assumption, hn, (hpe _ _ (by assumption)).1, hs⟩

/-- A file is dumped from the same again, on what was left the first time. -/
theorem dumped_again {env : Env} {buf : Bytes} {pre filename arch : Str} {server : Option Str} {w w1 w' : World} {o : ObjInput} {name : Str}
    {pe : Option ObjInput} {peName : Option Str} {platform : Platform} {opts : Bool} (hsane : Sane env w.disk) (hpe : SanePe env buf)
    (hca : SaneCaches env server w.disk) (h : DumpedFrom env buf pre filename arch server w o name pe peName platform opts w1)
    (hw : w'.disk = w1.disk) :
    (∃ w2, DumpedFrom env buf pre filename arch server w' o name pe peName platform opts w2 ∧ w2.disk = w'.disk) ∧
      (w1.disk ≠ w.disk → ∀ net' : Net, net'.cab = env.net.cab →
        DumpedFrom { env with net := net' } buf pre filename arch server w' o name pe peName platform opts w') := by
  have conf : ∀ servers name id x, Configured env.home w.disk server servers → WinProper name → WinProper id →
      Search env.net name id servers w x w1 → Configured env.home w'.disk server servers := by
    intro servers name id x h1 h2 h3 h4
    rw [hw]
    exact configured_search h2 h3 hsane.arrivals (by rintro ss rfl; exact hca ss h1) h1 h4
  have conf' : ∀ servers id recorded y, Configured env.home w.disk server servers → WinProper id →
      PdbFor env.net env.cwd (pre ++ filename) id servers w recorded y w1 → Configured env.home w'.disk server servers := by
    intro servers id recorded y h1 h2 h3
    rcases pdbFor_disk h3 with e | ⟨n, x, hn, hs⟩
    · rw [hw, e]; exact h1
    · exact conf servers n id x h1 hn h2 hs
  cases h with
  | elf h1 h2 => exact ⟨⟨_, .elf _ h1 h2, rfl⟩, fun hne => absurd rfl hne⟩
  | machoOnly h1 h2 => exact ⟨⟨_, .machoOnly _ h1 h2, rfl⟩, fun hne => absurd rfl hne⟩
  | machoOf b a h1 h2 h3 h4 h5 => exact ⟨⟨_, .machoOf _ b a h1 h2 h3 h4 h5, rfl⟩, fun hne => absurd rfl hne⟩
  | pdb stem h1 h2 h3 h4 => exact ⟨⟨_, .pdb _ stem h1 h2 h3 (by rw [hw]; exact h4), rfl⟩, fun hne => absurd rfl hne⟩
  | pdbPe pe b stem n r h1 h2 h3 h4 h5 =>
    exact ⟨⟨_, .pdbPe _ pe b stem n r h1 h2 h3 (by rw [hw]; exact h4) h5, rfl⟩, fun hne => absurd rfl hne⟩
  | pePdb pe b n r servers fs _ h1 h2 h3 h4 h5 h6 =>
    have hi := (hpe _ _ h2).1
    obtain ⟨⟨w2, a1, a2⟩, a3⟩ := pdbFor_again hi hsane.dirs hsane.room hsane.arrivals (by rintro ss rfl; exact hca ss h3) h4 hw
    have hc := conf' _ _ _ _ h3 hi h4
    exact ⟨⟨w2, .pePdb _ pe b _ r servers fs w2 h1 h2 hc a1 h5 h6, a2⟩, fun hne net' hcab =>
      .pePdb _ pe b _ r servers fs w' h1 h2 hc (a3 hne net' hcab) h5 h6⟩
  | pe _ r servers found _ h1 h2 h3 h4 h5 h6 =>
    have hi := (hpe _ _ h2).1
    obtain ⟨⟨w2, a1, a2⟩, a3⟩ := pdbFor_again hi hsane.dirs hsane.room hsane.arrivals (by rintro ss rfl; exact hca ss h3) h4 hw
    have hc := conf' _ _ _ _ h3 hi h4
    exact ⟨⟨w2, .pe _ _ r servers found w2 h1 h2 hc a1 h5 h6, a2⟩, fun hne net' hcab =>
      .pe _ _ r servers found w' h1 h2 hc (a3 hne net' hcab) h5 h6⟩

/-- The servers found on a disk are the only ones. -/
theorem configured_unique {home : Option Str} {d : Disk} {o : Option Str} {l l' : Option (List Server)} (hh : ∀ h, home = some h → PlainDir h)
    (h : Configured home d o l) (h' : Configured home d o l') : l = l' := by
  have e := ((C110_configured home d o hh).1 _).mpr h
  rw [((C110_configured home d o hh).1 _).mpr h'] at e
  cases e
  rfl

/-- The state a successful run leaves is as sane as the one it started from, and gives the same contents. -/
theorem read_again {env : Env} {config : Config} {pre filename : Str} {w w1 : World} {m : ObjectInfo} (hp : WinDirPart pre) (hn : WinProper filename)
    (hsane : Sane env w.disk) (hid : ∀ id, config.debugId = some id ∨ config.codeId = some id → WinProper id)
    (hca : SaneCaches env config.symbolServer w.disk) (hpe : ∀ b w1, Contents env config (pre ++ filename) filename w b w1 → SanePe env b)
    (h : readSingle env config (pre ++ filename) w = (.ok m, w1)) :
    (∃ w2, readSingle env config (pre ++ filename) w1 = (.ok m, w2) ∧ w2.disk = w1.disk) ∧
      (config.debugId = none → config.codeId = none → w1.disk ≠ w.disk → ∀ net' : Net, net'.cab = env.net.cab →
        (∀ u st raw p, net'.get u = some (st, raw) → raw.length ≤ net'.room p) → (∀ js, ∀ j ∈ net'.arrivals js, j ∈ js) →
        readSingle { env with net := net' } config (pre ++ filename) w1 = (.ok m, w1)) := by
  have har := hsane.arrivals
  -- a search leaves sane caches
  have saneCaches : ∀ {w w' : World} {servers name id x}, SaneCaches env config.symbolServer w.disk →
      Configured env.home w.disk config.symbolServer servers → WinProper name → WinProper id →
      Search env.net name id servers w x w' → SaneCaches env config.symbolServer w'.disk := by
    intro w w' servers name id x hca h1 h2 h3 h4 ss hs
    have hc := configured_search h2 h3 har (by rintro ss rfl; exact hca ss h1) h1 h4
    exact hca ss ((configured_unique hsane.home hs hc) ▸ h1)
  have hpe' : ∀ b w0, Contents env config (pre ++ filename) filename w b w0 → SanePe env b ∧ SaneCaches env config.symbolServer w0.disk := by
    intro b w0 hc
    refine ⟨hpe b w0 hc, ?_⟩
    cases hc with
    | byPath => exact hca
    | byId id servers _ _ h1 h2 h3 => exact saneCaches hca h2 hn (hid id (h1.imp (fun h => h) (fun h => h.2))) h3
  obtain ⟨b, w0, mapping, arch, o, name, pe, peName, platform, opts, hc, hm, ha, hd, hf⟩ :=
    (C112_run env config w w1 hp hn hsane hid hca hpe' m).mp h
  obtain ⟨hpb, hca0⟩ := hpe' b w0 hc
  have hsane0 := contents_sane hc hsane
  -- what the second search left
  have hdd := dumped_disk hpb hd
  have hwithin : w0.disk.Within w1.disk := by
    rcases hdd with rfl | ⟨servers, n, id, x, h1, h2, h3, h4⟩
    · exact fun _ _ h => h
    · exact search_within h2 h3 har (by rintro ss rfl; exact hca0 ss h1) h4
  have hsane1 : Sane env w1.disk := by
    refine ⟨?_, hsane.room, hsane.arrivals, hsane.cwd, hsane.home⟩
    rcases hdd with rfl | ⟨servers, n, id, x, h1, h2, h3, h4⟩
    · exact hsane0.dirs
    · exact fun q es hq => hsane0.dirs q es (search_dirs h4 hq)
  have hca1 : SaneCaches env config.symbolServer w1.disk := by
    rcases hdd with rfl | ⟨servers, n, id, x, h1, h2, h3, h4⟩
    · exact hca0
    · exact saneCaches hca0 h1 h2 h3 h4
  -- the contents are read again
  have hcont : ∃ w2, Contents env config (pre ++ filename) filename w1 b w2 ∧ w2.disk = w1.disk := by
    cases hc with
    | byPath _ h1 h2 h3 => exact ⟨w1, .byPath b h1 h2 (pathHolds_within hwithin h3), rfl⟩
    | byId id servers _ _ h1 h2 h3 =>
      have hi : WinProper id := hid id (h1.imp (fun h => h) (fun h => h.2))
      have hcs : ∀ ss, servers = some ss → PlainCaches ss := by rintro ss rfl; exact hca ss h2
      have hc0 := configured_search hn hi har hcs h2 h3
      have hpl : ∀ ss, servers = some ss → SamePlaces w0.disk w1.disk ss filename id := by
        intro ss hss s hs c hcc p hk
        rcases hdd with rfl | ⟨servers', n, id', x, g1, g2, g3, g4⟩
        · rfl
        · have hsv := configured_unique hsane.home g1 hc0
          subst hsv
          by_cases hsame : id' = id ∧ n = filename
          · obtain ⟨rfl, rfl⟩ := hsame
            obtain ⟨⟨w2, a1, a2⟩, _⟩ := search_again hn hi hsane.dirs hsane0.dirs hsane.room har hcs h3 (w' := w0) (fun _ _ h => h)
              (fun _ _ _ _ _ _ _ _ => rfl)
            have e1 := ((C110_search env.net n id' servers' w0 hn hi hsane0.dirs hsane.room har hcs).1 _ _).mpr a1
            rw [((C110_search env.net n id' servers' w0 hn hi hsane0.dirs hsane.room har hcs).1 _ _).mpr g4] at e1
            cases e1
            rw [a2]
          · rcases search_disk g2 g3 har hcs g4 with e | ⟨ss', b', q, raw, s', c', _, _, _, _, hk', _, e, _⟩
            · rw [e]
            · have hne : p ≠ q := by
                rintro rfl
                obtain ⟨e1, e2⟩ := kept_inj hn hi g2 g3 hk hk'
                exact hsame ⟨e1.symm, e2.symm⟩
              rw [e]
              simp only [Disk.write, if_neg hne]
      obtain ⟨⟨w2, a1, a2⟩, _⟩ := search_again hn hi hsane.dirs hsane1.dirs hsane.room har hcs h3 hwithin hpl
      refine ⟨w2, .byId id servers b w2 h1 ?_ a1, a2⟩
      rcases hdd with rfl | ⟨servers', n, id', x, g1, g2, g3, g4⟩
      · exact hc0
      · have hsv := configured_unique hsane.home g1 hc0
        subst hsv
        exact configured_search g2 g3 har hcs g1 g4
  obtain ⟨w2, hc2, e2⟩ := hcont
  -- and are the only ones
  have honly : ∀ b' w', Contents env config (pre ++ filename) filename w1 b' w' → b' = b ∧ w' = w2 := by
    intro b' w' h'
    have e := (contents_iff env config w1 hp hn hsane1 hid hca1 b' w').mpr h'
    rw [(contents_iff env config w1 hp hn hsane1 hid hca1 b w2).mpr hc2] at e
    cases e
    exact ⟨rfl, rfl⟩
  obtain ⟨⟨w3, d1, d2⟩, _⟩ := dumped_again hsane0 hpb hca0 hd e2
  have hca2 : SaneCaches env config.symbolServer w2.disk := by rw [e2]; exact hca1
  refine ⟨⟨w3, (C112_run env config w1 w3 hp hn hsane1 hid hca1 (fun b' w' h' => ?_) m).mpr
    ⟨b, w2, mapping, arch, o, name, pe, peName, platform, opts, hc2, hm, ha, d1, hf⟩, d2.trans e2⟩, fun h1 h2 hne net' hcab hroom' har' => ?_⟩
  · obtain ⟨rfl, rfl⟩ := honly b' w' h'
    exact ⟨hpb, hca2⟩
  · have hw0 : w0 = w := by
      cases hc with
      | byPath => rfl
      | byId id servers _ _ g => rcases g with g | ⟨_, g⟩ <;> simp_all
    subst hw0
    have hsane' : Sane { env with net := net' } w1.disk := ⟨hsane1.dirs, hroom', har', hsane1.cwd, hsane1.home⟩
    have hrd : PathHolds env.net.cab w1.disk (pre ++ filename) b := by
      cases hc with
      | byPath _ _ _ h3 => exact pathHolds_within hwithin h3
      | byId id servers _ _ g => rcases g with g | ⟨_, g⟩ <;> simp_all
    have hcw : Contents { env with net := net' } config (pre ++ filename) filename w1 b w1 :=
      .byPath b h1 h2 (by show PathHolds net'.cab _ _ _; rw [hcab]; exact hrd)
    refine (C112_run { env with net := net' } config w1 w1 hp hn hsane' hid hca1 (fun b' w' h' => ?_) m).mpr
      ⟨b, w1, mapping, arch, o, name, pe, peName, platform, opts, hcw, hm, ha, (dumped_again hsane0 hpb hca0 hd (w' := w1) rfl).2 hne net' hcab, hf⟩
    have e := (contents_iff { env with net := net' } config w1 hp hn hsane' hid hca1 b' w').mpr h'
    rw [(contents_iff { env with net := net' } config w1 hp hn hsane' hid hca1 b w1).mpr hcw] at e
    cases e
    exact ⟨hpb, hca1⟩

/-- **C127.** A run on one file that got a module on a Windows machine, repeated on what it left (with the same answers of the symbol servers), gives the
same module and the same outcome, downloads nothing into the caches, leaves every file as it is and prints the same text again. -/
theorem C127_again (env : Env) (extra : Option (List Str)) (config : Config) {pre filename : Str} (w : World) (out : Output.World) (m : ObjectInfo)
    (hp : WinDirPart pre) (hn : WinProper filename) (hsane : Sane env w.disk)
    (hid : ∀ id, config.debugId = some id ∨ config.codeId = some id → WinProper id) (hca : SaneCaches env config.symbolServer w.disk)
    (hpe : ∀ b w1, Contents env config (pre ++ filename) filename w b w1 → SanePe env b) (h : (readSingle env config (pre ++ filename) w).1 = .ok m)
    {r : Res Unit} {w1 : World} {out1 : Output.World} (h1 : singleFile env extra config (pre ++ filename) w out = (r, w1, out1)) :
    (readSingle env config (pre ++ filename) w1).1 = .ok m ∧
    ∃ w2 out2, singleFile env extra config (pre ++ filename) w1 out1 = (r, w2, out2) ∧ w2.disk = w1.disk ∧ out2.files = out1.files ∧
      (∃ so, out1.stdout = out.stdout ++ so ∧ out2.stdout = out1.stdout ++ so) ∧
      (∃ se, out1.stderr = out.stderr ++ se ∧ out2.stderr = out1.stderr ++ se) := by
  obtain ⟨⟨w2, a1, a2⟩, _⟩ := read_again hp hn hsane hid hca hpe (Prod.ext h rfl : readSingle env config (pre ++ filename) w = (.ok m, _))
  obtain ⟨r0, patch, so, se, hs⟩ := does_store env.io extra config.output config.checkCfi m
  simp only [singleFile, h, Prod.mk.injEq] at h1
  obtain ⟨rfl, rfl, rfl⟩ := h1
  simp only [singleFile, a1]
  obtain ⟨e1, f1, s1, t1⟩ := hs out
  obtain ⟨e2, f2, s2, t2⟩ := hs (store env.io extra config.output config.checkCfi m out).2
  refine ⟨trivial, _, _, Prod.ext (e2.trans e1.symm) rfl, a2, ?_, ⟨so, s1, s2⟩, ⟨se, t1, t2⟩⟩
  funext q
  rw [f2 q, f1 q]
  cases patch q <;> rfl

theorem jobs_dead (net : Net) (id base name : Str) (ss : List Server) : getJobs (deadNet net) id base name ss = getJobs net id base name ss := by
  induction ss with
  | nil => rfl
  | cons s ss ih =>
    have e : serverJobs (deadNet net) id base name s = serverJobs net id base name s := rfl
    unfold getJobs
    rw [e, ih]

theorem serverJobs_some {net : Net} {id base name : Str} {s : Server} : serverJobs net id base name s ≠ .ok [] := by
  intro h
  unfold serverJobs at h
  dsimp only at h
  cases h1 : Job.new net (s.cache.map (cachePath · base id name)) (Cache.jobUrl s.server name id name) with
  | err m => rw [h1] at h; cases h
  | panic => rw [h1] at h; cases h
  | ok job =>
    rw [h1] at h
    simp only [Res.bind] at h
    split at h
    · cases h
    · cases h2 : Cache.dropLastByte name with
      | err m => rw [h2] at h; cases h
      | panic => rw [h2] at h; cases h
      | ok short =>
        rw [h2] at h
        dsimp only at h
        cases h3 : Job.new net (s.cache.map (cachePath · base id name)) (Cache.jobUrl s.server name id (short ++ ['_'])) with
        | err m => rw [h3] at h; cases h
        | panic => rw [h3] at h; cases h
        | ok job2 => rw [h3] at h; cases h

theorem jobs_some {net : Net} {id base name : Str} {ss : List Server} (h : getJobs net id base name ss = .ok []) : ss = [] := by
  cases ss with
  | nil => rfl
  | cons s ss =>
    exfalso
    unfold getJobs at h
    cases h1 : serverJobs net id base name s with
    | err m => rw [h1] at h; cases h
    | panic => rw [h1] at h; cases h
    | ok js =>
      rw [h1] at h
      simp only [Res.bind] at h
      cases h2 : getJobs net id base name ss with
      | err m => rw [h2] at h; cases h
      | panic => rw [h2] at h; cases h
      | ok rest =>
        rw [h2] at h
        injection h with h
        exact serverJobs_some (h1.trans (congrArg _ (List.append_eq_nil_iff.mp h).1))

/-- A search that leaves no request behind without a network is the same with one. -/
theorem search_silent {net : Net} {name id : Str} {servers : Option (List Server)} {w : World} {x : Res (Option Bytes)} (hs : servers ≠ some [])
    (h : searchFile (deadNet net) name id servers w = (x, w)) : searchFile net name id servers w = (x, w) := by
  unfold searchFile at h ⊢
  split at h
  · next hn => rw [if_pos hn]; exact h
  · next hn =>
    rw [if_neg hn]
    cases servers with
    | none => exact h
    | some ss =>
      dsimp only at h ⊢
      cases hc : searchInCache w.disk ss id (getBase name) name with
      | some p => rw [hc] at h; exact h
      | none =>
        rw [hc] at h
        dsimp only at h ⊢
        rw [jobs_dead] at h
        cases hj : getJobs net id (getBase name) name ss with
        | err m => rw [hj] at h; exact h
        | panic => rw [hj] at h; exact h
        | ok jobs =>
          rw [hj] at h
          have e : fetchData (deadNet net) jobs w = (.ok none, { w with log := w.log ++ jobs.map (fun j => .head j.url) }) := rfl
          simp only [e] at h
          injection h with _ h
          have hl := congrArg Cache.World.log h
          have : jobs = [] := by simpa using hl
          subst this
          exact absurd (congrArg some (jobs_some hj)) hs

theorem servers_some {home : Option Str} {d : Disk} {given : Option Str} : getSymServers home d given ≠ .ok (some []) := by
  intro h
  have key : ∀ home s, Cache.readConfigFromStr home s ≠ some [] := by
    intro home s h
    unfold Cache.readConfigFromStr at h
    dsimp only at h
    split at h
    · cases h
    · next hne => injection h with h; exact hne h
  unfold getSymServers at h
  cases given with
  | some s => injection h with h; exact key _ _ h
  | none =>
    dsimp only at h
    unfold readConfig at h
    cases home with
    | none => cases h
    | some hm =>
      dsimp only at h
      split at h
      · cases h
      · split at h
        · injection h with h; exact key _ _ h
        · cases h
      · cases h

theorem getPePdbBuf_silent {net : Net} {parse : WinUtils.ParsePe} {cwd path : Str} {buf : Bytes} {servers : Option (List Server)} {w : World}
    (hs : servers ≠ some []) (h : (getPePdbBuf (deadNet net) parse cwd path buf servers w).2 = w) :
    getPePdbBuf net parse cwd path buf servers w = getPePdbBuf (deadNet net) parse cwd path buf servers w := by
  unfold getPePdbBuf at h ⊢
  cases hpe : parse buf with
  | none => rfl
  | some pe =>
    rw [hpe] at h
    dsimp only at h ⊢
    cases hrec : pe.debugFileName with
    | none => rfl
    | some rec =>
      rw [hrec] at h
      dsimp only at h ⊢
      have ec : (deadNet net).cab = net.cab := rfl
      rw [ec] at h ⊢
      cases hos : osSpecificTryToFindPdb net.cab w.disk cwd path rec with
      | err m => rfl
      | panic => rfl
      | ok x =>
        obtain ⟨pdb, n⟩ := x
        rw [hos] at h
        dsimp only at h ⊢
        split
        · rfl
        · next hn =>
          rw [if_neg hn] at h
          cases pdb with
          | some b => rfl
          | none =>
            dsimp only at h ⊢
            rw [search_silent hs (Prod.ext (y := ((searchFile (deadNet net) n pe.debugId servers w).1, w)) rfl h)]
            congr 1
            exact h.symm

/-- A run without ids that leaves no request behind without a network is the same with one. -/
theorem readSingle_silent {env : Env} {config : Config} {path : Str} {w : World} {m : Res ObjectInfo} (hid : config.debugId = none ∧ config.codeId = none)
    (h : readSingle { env with net := deadNet env.net } config path w = (m, w)) : readSingle env config path w = (m, w) := by
  unfold readSingle at h ⊢
  cases hf : getFilename path with
  | err m => rw [hf] at h; exact h
  | panic => rw [hf] at h; exact h
  | ok filename =>
    rw [hf] at h
    have e0 : ∀ net, getFromId { env with net := net } config path filename w = (readFile net.cab w.disk path, w) := by
      intro net
      unfold getFromId
      rw [hid.1, hid.2]; rfl
    simp only [e0] at h ⊢
    have ec : (deadNet env.net).cab = env.net.cab := rfl
    rw [ec] at h
    cases hb : readFile env.net.cab w.disk path with
    | err m => rw [hb] at h; exact h
    | panic => rw [hb] at h; exact h
    | ok buf =>
      rw [hb] at h
      dsimp only at h ⊢
      have ep : Dumper.prepare { env with net := deadNet env.net } config = Dumper.prepare env config := rfl
      rw [ep] at h
      cases hp : Dumper.prepare env config with
      | err m => rw [hp] at h; exact h
      | panic => rw [hp] at h; exact h
      | ok x =>
        obtain ⟨mapping, arch⟩ := x
        rw [hp] at h
        dsimp only at h ⊢
        unfold getObjectInfo at h ⊢
        dsimp only at h ⊢
        cases hk : env.parsers.peek buf with
        | elf => rw [hk] at h; exact h
        | pdb => rw [hk] at h; exact h
        | machO => rw [hk] at h; exact h
        | other => rw [hk] at h; exact h
        | pe =>
          rw [hk] at h
          dsimp only at h ⊢
          have hw : (getPePdbObjectInfo { env with net := deadNet env.net } buf path filename mapping config.symbolServer config.emitInlines w).2 = w := by
            have := congrArg Prod.snd h
            revert this
            cases (getPePdbObjectInfo { env with net := deadNet env.net } buf path filename mapping config.symbolServer config.emitInlines w).1 <;> exact id
          have eq : getPePdbObjectInfo env buf path filename mapping config.symbolServer config.emitInlines w =
              getPePdbObjectInfo { env with net := deadNet env.net } buf path filename mapping config.symbolServer config.emitInlines w := by
            unfold getPePdbObjectInfo at hw ⊢
            dsimp only at hw ⊢
            cases hs : getSymServers env.home w.disk config.symbolServer with
            | err m => rfl
            | panic => rfl
            | ok servers =>
              rw [hs] at hw
              dsimp only at hw ⊢
              have hr : (getPePdbBuf (deadNet env.net) (Dumper.parsePe env.parsers) env.cwd path buf servers w).2 = w := by
                revert hw
                split
                · split <;> exact id
                · exact id
                · exact id
                · exact id
              rw [getPePdbBuf_silent (fun e => servers_some (e ▸ hs)) hr]
              rfl
          rw [eq]
          exact h
/-- **C127, without a network.** When the first run, given no id, put something in a cache, the second one makes no request, whatever the network. -/
theorem C127_offline (env : Env) (config : Config) {pre filename : Str} (w : World) (m : ObjectInfo) (hp : WinDirPart pre) (hn : WinProper filename)
    (hsane : Sane env w.disk) (hid : config.debugId = none ∧ config.codeId = none) (hca : SaneCaches env config.symbolServer w.disk)
    (hpe : ∀ b w1, Contents env config (pre ++ filename) filename w b w1 → SanePe env b) {w1 : World}
    (h : readSingle env config (pre ++ filename) w = (.ok m, w1)) (hd : w1.disk ≠ w.disk) (net' : Net) (hcab : net'.cab = env.net.cab) :
    readSingle { env with net := net' } config (pre ++ filename) w1 = (.ok m, w1) :=
  readSingle_silent (env := { env with net := net' }) hid
    ((read_again hp hn hsane (by rintro id (h | h) <;> simp [hid] at h) hca hpe h).2 hid.1 hid.2 hd (deadNet net') hcab
      (by intro u st raw p h; cases h) (by intro js j h; cases h))

/-- **C127, the earlier contents.** What a run writes does not depend on what its destinations held: for any two earlier states the outcome is the
same, and every path either holds the same after both or is untouched by both. -/
theorem C127_contents (env : Env) (extra : Option (List Str)) (config : Config) (path : Str) (w : World) (out out' : Output.World) :
    (singleFile env extra config path w out).1 = (singleFile env extra config path w out').1 ∧
      ∀ q, (singleFile env extra config path w out).2.2.files q = (singleFile env extra config path w out').2.2.files q ∨
        ((singleFile env extra config path w out).2.2.files q = out.files q ∧
          (singleFile env extra config path w out').2.2.files q = out'.files q) := by
  unfold singleFile
  simp only
  cases (readSingle env config path w).1 with
  | err m => exact ⟨rfl, fun q => .inr ⟨rfl, rfl⟩⟩
  | panic => exact ⟨rfl, fun q => .inr ⟨rfl, rfl⟩⟩
  | ok m =>
    obtain ⟨r0, patch, so, se, hs⟩ := does_store env.io extra config.output config.checkCfi m
    obtain ⟨e1, f1, _, _⟩ := hs out
    obtain ⟨e2, f2, _, _⟩ := hs out'
    refine ⟨e1.trans e2.symm, fun q => ?_⟩
    simp only
    rw [f1 q, f2 q]
    cases patch q with
    | some b => exact .inl rfl
    | none => exact .inr ⟨rfl, rfl⟩

/-! ### Examples -/

/-- A Windows machine with a symbol server that has the PDB of `a.dll`, and a disk taking `room` bytes per file. -/
def winAgainEnv (room : Nat) : Env := { winEnv with net := Dumper.againNet room }

def winAgainConfig : Config :=
  { Dumper.exConfig with symbolServer := some (str% "srv*C:\\c*http://s"), output := .fileAndStore .stdout (str% "C:\\store") }

/-- Nothing but the PE. -/
def winAgainDisk : World := Dumper.exWorld [(str% "C:\\w\\a.dll", .file [3] true)]

/-- The module, the number of functions and the number of requests of a run, and of the same run again with the second network. -/
def winAgainTwice (room : Nat) (net' : Net) : (Res (Str × Nat) × Nat) × (Res (Str × Nat) × Nat) :=
  let a := readSingle (winAgainEnv room) winAgainConfig (str% "C:\\w\\a.dll") winAgainDisk
  let b := readSingle { winAgainEnv room with net := net' } winAgainConfig (str% "C:\\w\\a.dll") a.2
  ((a.1.map fun o => (o.fileName, o.symbols.length), a.2.log.length), (b.1.map fun o => (o.fileName, o.symbols.length), b.2.log.length))

/-- Three requests at first, none again, even without a network. -/
example : winAgainTwice 1000 (Cache.exDown fun _ => none) = ((.ok (str% "m.pdb", 1), 3), (.ok (str% "m.pdb", 1), 3)) := by decide +kernel

theorem winAgain_sane : Sane (winAgainEnv 1000) winAgainDisk.disk where
  dirs := fun q es h => by
    simp only [winAgainDisk, Dumper.exWorld, WinUtils.diskOf, List.lookup] at h
    split at h <;> cases h
  room := fun u st raw p h => Dumper.again_room u st raw p h
  arrivals := Dumper.again_arrivals
  cwd := winPair_sane.cwd
  home := winPair_sane.home

theorem winAgain_caches : SaneCaches (winAgainEnv 1000) winAgainConfig.symbolServer winAgainDisk.disk := by
  intro ss h
  have := ((C110_configured (winAgainEnv 1000).home winAgainDisk.disk winAgainConfig.symbolServer winAgain_sane.home).1 _).mpr h
  rw [show getSymServers (winAgainEnv 1000).home winAgainDisk.disk winAgainConfig.symbolServer =
    .ok (some [⟨some (str% "C:\\c"), str% "http://s"⟩]) by decide +kernel] at this
  cases this
  intro s hs c hc
  cases List.mem_singleton.mp hs
  cases hc
  exact ⟨_, _, _, .driveRooted 'C' '\\' _ (by decide) (by decide)⟩

theorem winAgain_pe : ∀ b w1, Contents (winAgainEnv 1000) winAgainConfig (str% "C:\\w\\" ++ str% "a.dll") (str% "a.dll") winAgainDisk b w1 →
    SanePe (winAgainEnv 1000) b := by
  intro b w1 h
  have := (contents_iff (winAgainEnv 1000) winAgainConfig winAgainDisk ex_part_drive (winProper_of (by decide)) winAgain_sane
    (by rintro id (h | h) <;> cases h) winAgain_caches b w1).mpr h
  cases this
  intro pe rec hp
  cases hp
  refine ⟨winProper_of (by decide), ?_⟩
  intro r hr
  cases hr
  exact .inr ⟨str% "C:\\x/", str% "m.pdb", rfl,
    ⟨str% "C:\\", str% "x/", rfl, .driveRooted 'C' '\\' _ (by decide) (by decide), .inr ⟨str% "x", '/', rfl, by decide⟩⟩, winProper_of (by decide)⟩

/-- The theorems are about this run: what is kept in `C:\c` is used without a network. -/
example (w1 : World) (m : ObjectInfo)
    (h : readSingle (winAgainEnv 1000) winAgainConfig (str% "C:\\w\\" ++ str% "a.dll") winAgainDisk = (.ok m, w1)) :
    readSingle { winAgainEnv 1000 with net := Cache.exDown fun _ => none } winAgainConfig (str% "C:\\w\\" ++ str% "a.dll") w1 = (.ok m, w1) := by
  refine C127_offline _ _ _ _ ex_part_drive (winProper_of (by decide)) winAgain_sane ⟨rfl, rfl⟩ winAgain_caches winAgain_pe h (fun e => ?_) _ rfl
  have e1 : w1.disk (str% "C:\\c\\m.pdb\\A1\\m.pdb") = some (.file [2] true) := by
    rw [← congrArg (fun x => x.2.disk (str% "C:\\c\\m.pdb\\A1\\m.pdb")) h]; decide +kernel
  rw [e] at e1
  revert e1
  decide

example : ∃ m w1 out1, (readSingle (winAgainEnv 1000) winAgainConfig (str% "C:\\w\\" ++ str% "a.dll") winAgainDisk).1 = .ok m ∧
    m.fileName = str% "m.pdb" ∧
    singleFile (winAgainEnv 1000) none winAgainConfig (str% "C:\\w\\" ++ str% "a.dll") winAgainDisk Output.emptyWorld = (.ok (), w1, out1) ∧
    out1.files (str% "C:\\store\\m.pdb\\A1\\m.sym") ≠ none ∧
    ∃ w2 out2, singleFile (winAgainEnv 1000) none winAgainConfig (str% "C:\\w\\" ++ str% "a.dll") w1 out1 = (.ok (), w2, out2) ∧
      w2.disk = w1.disk ∧ out2.files = out1.files := by
  obtain ⟨m, hm, h1⟩ : ∃ m, (readSingle (winAgainEnv 1000) winAgainConfig (str% "C:\\w\\" ++ str% "a.dll") winAgainDisk).1 = .ok m ∧
    m.fileName = str% "m.pdb" := ⟨_, rfl, by decide⟩
  generalize hr : singleFile (winAgainEnv 1000) none winAgainConfig (str% "C:\\w\\" ++ str% "a.dll") winAgainDisk Output.emptyWorld = r
  have hr1 : r.1 = .ok () := by rw [← hr]; decide +kernel
  have hr2 : r.2.2.files (str% "C:\\store\\m.pdb\\A1\\m.sym") ≠ none := by rw [← hr]; decide +kernel
  obtain ⟨r, w1, out1⟩ := r
  cases hr1
  obtain ⟨_, w2, out2, a, b, c, _⟩ := C127_again _ none _ _ _ m ex_part_drive (winProper_of (by decide)) winAgain_sane (by rintro id (h | h) <;> cases h)
    winAgain_caches winAgain_pe hm hr
  exact ⟨m, w1, out1, hm, h1, rfl, hr2, w2, out2, a, b, c⟩

/-- The hypothesis on the room is needed: on a full disk an empty file stays in the cache, and the PE is dumped alone the second time. -/
theorem C127_full_disk_witness : winAgainTwice 0 (Dumper.againNet 0) = ((.ok (str% "m.pdb", 1), 3), (.ok (str% "m.pdb", 0), 3)) := by decide +kernel

end WinHost
end DumpSyms
