import Verif.Spec.WinCrash
import Verif.Proof.CrashCollect
import Verif.Props.WinDumper
/-!
# When the searches for files, and finding out what to dump, crash on Windows
-/
namespace DumpSyms
namespace WinHost
open WinPath
open WinUtils (peExts baseName_exists baseName_unique isFile_iff)
open Cache (Net World Server Job Refused CannotAsk jobUrl dropLastByte refused_iff)
open Dumper (Env Config seenPe parsePe fromElf fromMacho fromPdb fromPe fromObject getPeObjectInfo prepare selectObject winPathFileName afterLast_winPath)

theorem serverJobs_panic {net : Net} {id base name : Str} {s : Server} (hn : name ≠ []) :
    serverJobs net id base name s = .panic ↔ CannotAsk net.validUrl s.server name id := by
  obtain ⟨stem, c, rfl⟩ : ∃ stem c, name = stem ++ [c] := ⟨name.dropLast, name.getLast hn, (List.dropLast_concat_getLast hn).symm⟩
  have hu : ∀ c' stem', stem ++ [c] = stem' ++ [c'] → stem' = stem ∧ c' = c := by
    intro c' stem' e
    have := List.append_inj' e rfl
    simp only [List.cons.injEq, and_true] at this
    exact ⟨this.1.symm, this.2.symm⟩
  unfold serverJobs Job.new dropLastByte
  simp only [List.getLast?_append, List.getLast?_singleton, Option.some_or, Option.some.injEq, List.dropLast_concat]
  constructor
  · intro h
    by_cases h1 : net.validUrl (jobUrl s.server (stem ++ [c]) id (stem ++ [c])) = true
    · rw [if_pos h1] at h
      simp only [Res.bind] at h
      by_cases h2 : c = '_'
      · rw [if_pos h2] at h; cases h
      · rw [if_neg h2] at h
        by_cases h3 : c.toNat < 128
        · rw [if_pos h3] at h
          simp only at h
          by_cases h4 : net.validUrl (jobUrl s.server (stem ++ [c]) id (stem ++ ['_'])) = true
          · rw [if_pos h4] at h; cases h
          · exact .packedUrl stem c rfl h2 ((Bool.not_eq_true _).mp h4)
        · exact .multibyte stem c rfl (by omega)
    · exact .url ((Bool.not_eq_true _).mp h1)
  · intro h
    cases h with
    | url h =>
      have h : net.validUrl (jobUrl s.server (stem ++ [c]) id (stem ++ [c])) = false := h
      simp [h, Res.bind]
    | packedUrl stem' c' e h2 h4 =>
      obtain ⟨rfl, rfl⟩ := hu _ _ e
      have h4 : net.validUrl (jobUrl s.server (stem' ++ [c']) id (stem' ++ ['_'])) = false := h4
      by_cases h1 : net.validUrl (jobUrl s.server (stem' ++ [c']) id (stem' ++ [c'])) = true
      · by_cases h3 : c'.toNat < 128 <;> simp [h1, h2, h3, h4, Res.bind]
      · simp [h1, Res.bind]
    | multibyte stem' c' e h3 =>
      obtain ⟨rfl, rfl⟩ := hu _ _ e
      have h2 : c' ≠ '_' := by rintro rfl; revert h3; decide
      by_cases h1 : net.validUrl (jobUrl s.server (stem' ++ [c']) id (stem' ++ [c'])) = true
      · simp [h1, h2, show ¬ c'.toNat < 128 by omega, Res.bind]
      · simp [h1, Res.bind]

theorem getJobs_panic {net : Net} {id base name : Str} (hn : name ≠ []) (ss : List Server) :
    getJobs net id base name ss = .panic ↔ ∃ s ∈ ss, CannotAsk net.validUrl s.server name id := by
  induction ss with
  | nil => simp [getJobs]
  | cons s ss ih =>
    have h1 : ∀ m, serverJobs net id base name s ≠ .err m := by
      intro m h
      have := getJobs_no_err (net := net) (id := id) (base := base) (name := name) [s] m
      simp only [getJobs, h, Res.bind] at this
      exact this rfl
    have h2 : (∃ x ∈ s :: ss, CannotAsk net.validUrl x.server name id) ↔
        serverJobs net id base name s = .panic ∨ getJobs net id base name ss = .panic := by
      rw [ih, serverJobs_panic hn]
      simp
    rw [h2, getJobs]
    generalize serverJobs net id base name s = x at h1
    cases x with
    | err m => exact absurd rfl (h1 m)
    | panic => simp [Res.bind]
    | ok js =>
      generalize getJobs net id base name ss = y
      cases y <;> simp [Res.bind]

/-- A search crashes exactly in the cases described. -/
theorem search_crash_iff (net : Net) (name id : Str) (servers : Option (List Server)) (w : World) (hn : WinProper name)
    (hi : WinProper id) (hd : ∀ q es, w.disk q = some (.dir es) → ∀ e ∈ es, WinProper e)
    (hroom : ∀ u st raw p, net.get u = some (st, raw) → raw.length ≤ net.room p) (har : ∀ js, ∀ j ∈ net.arrivals js, j ∈ js)
    (hcs : ∀ ss, servers = some ss → PlainCaches ss) :
    (searchFile net name id servers w).1 = .panic ↔ ∃ ss, servers = some ss ∧ SearchCrash net name id ss w := by
  constructor
  · intro h
    have hno : ∀ x w', ¬ Search net name id servers w x w' := by
      intro x w' hs
      rw [search_complete hn hi hd hroom har hcs hs] at h
      cases h
    cases servers with
    | none => exact absurd (.noServers w) (hno _ _)
    | some ss =>
      have hcs := hcs ss rfl
      refine ⟨ss, rfl, ?_⟩
      cases hsc : searchInCache w.disk ss id (getBase name) name with
      | some path =>
        have hf := (firstCached_iff hcs hn hi).mpr hsc
        exact .cached path hf fun b hb => hno _ _ (.cached ss w path b hn.1 hf hb)
      | none =>
        have hfree := (notCached_iff hcs hn hi).mpr hsc
        cases hj : getJobs net id (getBase name) name ss with
        | err m => exact absurd hj (getJobs_no_err ss m)
        | panic =>
          obtain ⟨s, hs, ha⟩ := (getJobs_panic hn.1 ss).mp hj
          exact .ask s hfree hs ha
        | ok jobs =>
          have hall := (askedAll_iff hcs hn hi).mpr hj
          cases har' : net.arrivals jobs with
          | nil => exact absurd (.nowhere ss w jobs hn.1 hfree hall har') (hno _ _)
          | cons j js =>
            cases hg : net.get j.url with
            | none => exact absurd (.failed ss w jobs j js hn.1 hfree hall har' hg) (hno _ _)
            | some sr =>
              obtain ⟨st, raw⟩ := sr
              by_cases href : Refused raw
              · exact absurd (.refused ss w jobs j js st raw hn.1 hfree hall har' hg href) (hno _ _)
              · by_cases hb : ∃ b, FileHolds net.cab name raw b
                · obtain ⟨b, hb⟩ := hb
                  cases hc : j.cache with
                  | none => exact absurd (.fetched ss w jobs j js st raw b hn.1 hfree hall har' hg href hc hb) (hno _ _)
                  | some p =>
                    have hm : j ∈ jobs := har _ _ (by rw [har']; simp)
                    obtain ⟨s, hs, c, hc', e⟩ := getJobs_cache hj hm hc
                    obtain ⟨_, a, d, e2, ha, hd'⟩ := cachePath_parts (hcs s hs c hc') (getBase_win hn).2 hi hn
                    have hpp : p = (a ++ (d ++ id)) ++ '\\' :: name := e.trans e2
                    by_cases hok : ((w.disk (a ++ (d ++ id))).isSome = true ∨ net.mkdirs (a ++ (d ++ id)) = true) ∧
                        net.create ((a ++ (d ++ id)) ++ '\\' :: name) = true
                    · exact absurd (.stored ss w jobs j js st raw b (a ++ (d ++ id)) hn.1 hfree hall har' hg href (by rw [hc, hpp])
                        hok.1 hok.2 hb) (hno _ _)
                    · refine .full jobs js j st raw (a ++ (d ++ id)) hfree hall har' hg href (by rw [hc, hpp]) ?_
                      by_cases hcr : net.create ((a ++ (d ++ id)) ++ '\\' :: name) = true
                      · left
                        refine ⟨?_, ?_⟩
                        · cases hx : w.disk (a ++ (d ++ id)) with
                          | none => rfl
                          | some n => exact absurd ⟨.inl (by rw [hx]; rfl), hcr⟩ hok
                        · cases hx : net.mkdirs (a ++ (d ++ id)) with
                          | false => rfl
                          | true => exact absurd ⟨.inr hx, hcr⟩ hok
                      · exact .inr (by simpa using hcr)
                · exact .cabinet jobs js j st raw hfree hall har' hg href fun b h => hb ⟨b, h⟩
  · rintro ⟨ss, rfl, h⟩
    refine (search_sound hn hi hd hroom har hcs).resolve_left ?_
    rintro ⟨x, w', hs⟩
    have hs := search_complete hn hi hd hroom har hcs hs
    have hcs := hcs ss rfl
    unfold searchFile at hs
    rw [if_neg hn.1] at hs
    cases h with
    | cached path hf hr =>
      have hsc := (firstCached_iff hcs hn hi).mp hf
      obtain ⟨before, s, after, c, e, _, hc, hk, _⟩ := hf
      have hpc := hcs s (by rw [e]; simp) c hc
      have hrd := readFile_cached net.cab w.disk hpc (getBase_win hn).2 hi hn hd
      rw [← (kept_iff hpc hn hi).mp hk] at hrd
      simp only [hsc, hrd.2 fun ⟨b, hb⟩ => hr b ((hrd.1 b).mp hb), Res.map_panic] at hs
      cases hs
    | ask s hfree hs' ha =>
      simp only [(notCached_iff hcs hn hi).mp hfree, (getJobs_panic hn.1 ss).mpr ⟨s, hs', ha⟩] at hs
      cases hs
    | full jobs js j st raw dir hfree hall har' hg href hc hx =>
      have hj := (askedAll_iff hcs hn hi).mp hall
      have hm : j ∈ jobs := har _ _ (by rw [har']; simp)
      obtain ⟨s, hs', c, hc', e⟩ := getJobs_cache hj hm hc
      obtain ⟨_, a, d, e2, ha, hd'⟩ := cachePath_parts (hcs s hs' c hc') (getBase_win hn).2 hi hn
      have hdir : dir = a ++ (d ++ id) := (List.append_inj' (e.trans e2) rfl).1
      subst hdir
      have := copy_panics (net := net) (d := w.disk) href (cachePath_parent ha hd' hi hn) (by
        rintro ⟨h1, h2⟩
        rcases hx with ⟨h3, h4⟩ | h3
        · rcases h1 with h1 | h1
          · rw [h3] at h1; cases h1
          · rw [h4] at h1; cases h1
        · rw [h3] at h2; cases h2)
      rw [← hc] at this
      simp only [(notCached_iff hcs hn hi).mp hfree, hj, fetch_got har' hg, this, Res.map_panic] at hs
      cases hs
    | cabinet jobs js j st raw hfree hall har' hg href hb =>
      have hj := (askedAll_iff hcs hn hi).mp hall
      have hno : ∀ b, readCabinet net.cab raw name ≠ .ok (some b) := fun b h => hb b ((readCabinet_name hn).mp h)
      simp only [(notCached_iff hcs hn hi).mp hfree, hj, fetch_got har' hg] at hs
      have hcp : (copyInCache net j.cache raw w.disk).1 = .ok true ∨ (copyInCache net j.cache raw w.disk).1 = .panic := by
        unfold copyInCache
        rw [if_neg (by rw [← refused_iff]; exact href)]
        split
        · exact .inl rfl
        · simp only
          split
          · exact .inr rfl
          · split
            · exact .inr rfl
            · rw [Output.dump_fits (by simpa using hroom _ _ _ _ hg)]
              exact .inl rfl
      rcases hcp with h | h
      · simp only [h, Res.map_ok, if_true] at hs
        cases hs
      · simp only [h, Res.map_panic] at hs
        cases hs

theorem config_crash_iff (home : Option Str) (d : Disk) (given : Option Str) (hh : ∀ h, home = some h → PlainDir h) :
    getSymServers home d given = .panic ↔ ConfigCrash home d given := by
  obtain ⟨c1, c2⟩ := C110_configured home d given hh
  constructor
  · intro h
    have hno : ∀ l, ¬ Configured home d given l := fun l hl => by rw [(c1 l).mpr hl] at h; cases h
    cases given with
    | some s => exact absurd (.given s _ (Cache.serversIn_iff.mpr rfl)) (hno _)
    | none =>
      cases home with
      | none => exact absurd (.noHome rfl) (hno _)
      | some hm =>
        obtain ⟨conf, hi⟩ : ∃ conf, Inside hm (str% ".dump_syms\\config") conf := by
          by_cases k : NoSepAfter hm
          · exact ⟨_, .inl ⟨k, rfl⟩⟩
          · exact ⟨_, .inr ⟨k, rfl⟩⟩
        cases hd : d conf with
        | none => exact absurd (.noConfig hm conf rfl hi hd) (hno _)
        | some n =>
          refine ⟨rfl, hm, conf, n, rfl, hi, hd, ?_⟩
          rintro raw rfl
          cases hs : Utf8.decode raw with
          | none => rfl
          | some s => exact absurd (.config hm conf raw s _ rfl hi hd hs (Cache.serversIn_iff.mpr rfl)) (hno _)
  · rintro ⟨rfl, h, conf, n, rfl, hi, hd, hs⟩
    refine c2 ?_
    rintro ⟨l, hl⟩
    cases hl with
    | noHome h => cases h
    | noConfig h' conf' e hi' hd' => cases e; rw [inside_unique hi' hi, hd] at hd'; cases hd'
    | config h' conf' raw s _ e hi' hd' hs' _ =>
      cases e
      rw [inside_unique hi' hi, hd] at hd'
      cases hd'
      rw [hs raw rfl] at hs'
      cases hs'

theorem getSymServers_no_err (home : Option Str) (d : Disk) (given : Option Str) (hh : ∀ h, home = some h → PlainDir h) (m : Str) :
    getSymServers home d given ≠ .err m := by
  intro h
  by_cases hx : ∃ l, Configured home d given l
  · obtain ⟨l, hl⟩ := hx
    rw [((C110_configured home d given hh).1 l).mpr hl] at h; cases h
  · rw [(C110_configured home d given hh).2 hx] at h; cases h

theorem pe_crash_iff (cab : Cab) (parse : WinUtils.ParsePe) (d : Disk) (id : Str) {pre name stem : Str} (hp : WinDirPart pre) (hn : WinProper name)
    (hb : BaseName name stem) : findPeForPdb cab parse d (pre ++ name) id = .panic ↔ PeCrash cab parse d id pre stem := by
  obtain ⟨c1, c2⟩ := C108_pe_of_pdb cab parse d id hp hn hb
  constructor
  · intro h
    have hno : ∀ x, ¬ PeFor cab parse d id pre stem x := by
      intro x hx
      rw [(c1 x).mpr hx] at h; cases h
    have key : ∀ exts before, peExts = before ++ exts → (∀ e ∈ before, NoPe cab parse d id (pre ++ (stem ++ '.' :: e.1))) →
        PeCrash cab parse d id pre stem := by
      intro exts
      induction exts with
      | nil =>
        intro before e hbef
        exact absurd (.none (by rw [e]; simpa using hbef)) (hno _)
      | cons x exts ih =>
        intro before e hbef
        have hnext : NoPe cab parse d id (pre ++ (stem ++ '.' :: x.1)) → PeCrash cab parse d id pre stem := by
          intro hx
          refine ih (before ++ [x]) (by rw [e]; simp) ?_
          intro y hy
          rcases List.mem_append.mp hy with hy | hy
          · exact hbef y hy
          · rw [List.mem_singleton.mp hy]
            exact hx
        by_cases hf : IsFile d (pre ++ (stem ++ '.' :: x.1))
        · by_cases hr : ∃ b, Holds cab d (pre ++ (stem ++ '.' :: x.1)) b
          · obtain ⟨b, hr⟩ := hr
            by_cases hpe : ∃ pe, parse b = some pe ∧ pe.debugId = id
            · exact absurd (.found before x.1 x.2 exts b e hbef ⟨hr, hpe⟩) (hno _)
            · exact hnext (.inr ⟨b, hr, fun pe h1 h2 => hpe ⟨pe, h1, h2⟩⟩)
          · exact .mk before x.1 x.2 exts e hbef hf fun b h => hr ⟨b, h⟩
        · exact hnext (.inl hf)
    exact key peExts [] rfl (by simp)
  · rintro ⟨before, ext, rep, after, h1, h2, h3, h4⟩
    obtain ⟨n1, hn1, hb1, e1⟩ := findLoop_skip cab parse d id hp before
      (fun y hy => by rw [h1]; simp [hy]) h2 (ext :: after.map (·.1)) hn hb
    unfold findPeForPdb
    rw [show [str% "dll", str% "dl_", str% "exe", str% "ex_"] = peExts.map (·.1) from rfl, h1, List.map_append, List.map_cons, e1]
    rcases (findLoop_step cab parse d id hp hn1 hb1 (x := (ext, rep)) (by rw [h1]; simp) (after.map (·.1))).2.2 with k | ⟨b, k⟩ | k
    · rcases k with k | ⟨b, k, _⟩
      · exact absurd h3 k
      · exact absurd k (h4 b)
    · exact absurd k.1 (h4 b)
    · exact k

theorem pdb_crash_iff (net : Net) (parse : WinUtils.ParsePe) (cwd path : Str) (buf : Bytes)
    (servers : Option (List Server)) (w : World) {pe : WinUtils.Pe} (hpe : parse buf = some pe) (hpath : ∃ dir, WinDirOf path dir)
    (hcwd : ∃ dir, WinDirOf cwd dir)
    (hrec : ∀ r, pe.debugFileName = some r → WinPath.fileName r = none ∨ ∃ pre name, r = pre ++ name ∧ WinDirPart pre ∧ WinProper name)
    (hi : WinProper pe.debugId) (hd : ∀ q es, w.disk q = some (.dir es) → ∀ e ∈ es, WinProper e)
    (hroom : ∀ u st raw p, net.get u = some (st, raw) → raw.length ≤ net.room p) (har : ∀ js, ∀ j ∈ net.arrivals js, j ∈ js)
    (hcs : ∀ ss, servers = some ss → PlainCaches ss) :
    (getPePdbBuf net parse cwd path buf servers w).1 = .panic ↔
      ∃ r, pe.debugFileName = some r ∧ PdbCrash net cwd path pe.debugId r servers w := by
  obtain ⟨c1, c2⟩ := C111_source net parse cwd path buf servers w hpe hpath hcwd hrec hi hd hroom har hcs
  constructor
  · intro h
    have hno : ∀ y w', ¬ PdbFor net cwd path pe.debugId servers w pe.debugFileName y w' := by
      intro y w' hy
      have := (c1 _ _).mpr ⟨y, hy, rfl⟩
      rw [this] at h; cases h
    cases hr : pe.debugFileName with
    | none => rw [hr] at hno; exact absurd .unnamed (hno _ _)
    | some r =>
      rw [hr] at hno
      refine ⟨r, rfl, ?_⟩
      rcases hrec r hr with hf | ⟨pre, name, rfl, hpre, hn⟩
      · exact absurd (.noFile r hf) (hno _ _)
      · obtain ⟨dir, h1⟩ := hpath
        obtain ⟨cdir, h2⟩ := hcwd
        obtain ⟨stem, h3⟩ := baseName_exists name
        have hpl : Places cwd path (pre ++ name) name _ := .mk dir cdir stem h1 h2 h3
        generalize [pre ++ name, dir ++ name, dir ++ (stem ++ str% ".pd_"), cdir ++ name] = ps at hpl
        cases hfind : ps.find? w.disk.isFile with
        | some p =>
          obtain ⟨hp, before, after, e, hb⟩ := List.find?_eq_some_iff_append.mp hfind
          have hb' : ∀ q ∈ before, ¬ IsFile w.disk q := by
            intro q hq h
            have := hb q hq
            rw [isFile_iff.mpr h] at this
            cases this
          exact .onDisk pre name ps before p after rfl hpre hn hpl e hb' (isFile_iff.mp hp) fun b hx =>
            hno _ _ (.onDisk pre name ps before p after b hpre hn hpl e hb' (isFile_iff.mp hp) hx)
        | none =>
          have hnf : ∀ q ∈ ps, ¬ IsFile w.disk q := by
            intro q hq h
            have := List.find?_eq_none.mp hfind q hq
            exact this (isFile_iff.mpr h)
          have hs : ∀ x w', ¬ Search net name pe.debugId servers w x w' :=
            fun x w' hx => hno _ _ (.searched pre name ps x w' hpre hn hpl hnf hx)
          have hs2 := (C110_search net name pe.debugId servers w hn hi hd hroom har hcs).2 fun ⟨x, w', hx⟩ => hs x w' hx
          obtain ⟨ss, e1, e2⟩ := (search_crash_iff net name pe.debugId servers w hn hi hd hroom har hcs).mp hs2
          exact .searched pre name ps ss rfl hpre hn hpl hnf e1 e2
  · rintro ⟨r, hr, h⟩
    unfold getPePdbBuf
    cases h with
    | onDisk pre name ps before p after e0 hpre hn hpl e hb hp hx =>
      subst e0
      have := ((C109_places_partial net.cab w.disk hpre hn hpl).1 before p after e hb hp).2 fun ⟨b, h⟩ => hx b h
      simp only [hpe, hr, this]
    | searched pre name ps ss e0 hpre hn hpl hnf e1 e2 =>
      subst e0
      have := (C109_places_partial net.cab w.disk hpre hn hpl).2 hnf
      have hs := (search_crash_iff net name pe.debugId servers w hn hi hd hroom har hcs).mpr ⟨ss, e1, e2⟩
      simp only [hpe, hr, this, if_neg hn.1, hs, Res.map_panic]

/-! ### Finding out what to dump -/

theorem input_crash {env : Env} {buf : Bytes} {pre filename : Str} {symbolServer : Option Str} {w : World}
    (hp : WinDirPart pre) (hn : WinProper filename) (hsane : Sane env w.disk) (hpe : SanePe env buf) (hca : SaneCaches env symbolServer w.disk)
    (h : InputCrash env buf pre filename symbolServer w) (arch : Str) (mapping : Option (List Mapping.Generator)) (inlines : Bool) :
    (getObjectInfo env buf (pre ++ filename) filename mapping arch symbolServer inlines w).1 = .panic := by
  have hpath := dirOf_exists hp hn
  unfold getObjectInfo
  cases h with
  | macho hk h => simp [hk, fromMacho, h, selectObject]
  | pdb o stem hk h hb hc =>
    have := (pe_crash_iff env.net.cab (seenPe env.parsers) w.disk o.debugId hp hn hb).mpr hc
    simp only [hk, getPdbObjectInfo, h]
    rw [show parsePe env.parsers = seenPe env.parsers from rfl, this]
    rfl
  | pe hk h =>
    simp only [hk, getPePdbObjectInfo]
    cases hs : getSymServers env.home w.disk symbolServer with
    | err m => simp only [getPeObjectInfo, h]
    | panic => rfl
    | ok servers => simp only [getPePdbBuf, parsePe, h, Option.map_none]
  | config hk hc =>
    have := (config_crash_iff _ _ _ hsane.home).mpr hc
    simp only [hk, getPePdbObjectInfo, this]
  | pePdb pe r servers hk h hs hc =>
    obtain ⟨k1, k2⟩ := hpe pe (some r) h
    have hcs : ∀ ss, servers = some ss → PlainCaches ss := by
      rintro ss rfl
      exact hca ss hs
    have hseen : seenPe env.parsers buf = some ⟨pe.debugId, some r⟩ := by unfold seenPe; rw [h]; rfl
    have := (pdb_crash_iff env.net (seenPe env.parsers) env.cwd (pre ++ filename) buf servers w hseen hpath hsane.cwd k2 k1
      hsane.dirs hsane.room hsane.arrivals hcs).mpr ⟨r, rfl, hc⟩
    simp only [hk, getPePdbObjectInfo, ((C110_configured _ _ _ hsane.home).1 _).mpr hs]
    rw [show parsePe env.parsers = seenPe env.parsers from rfl, this]

theorem input_crash_of {env : Env} {buf : Bytes} {pre filename : Str} {symbolServer : Option Str} {w : World}
    (hp : WinDirPart pre) (hn : WinProper filename) (hsane : Sane env w.disk) (hpe : SanePe env buf) (hca : SaneCaches env symbolServer w.disk)
    {arch : Str} {mapping : Option (List Mapping.Generator)} {inlines : Bool}
    (h : (getObjectInfo env buf (pre ++ filename) filename mapping arch symbolServer inlines w).1 = .panic) :
    InputCrash env buf pre filename symbolServer w ∨
      ∃ o name pe peName platform opts w', DumpedFrom env buf pre filename arch symbolServer w o name pe peName platform opts w' ∧
        fromObject env o name pe peName platform (if opts then mapping else none) (inlines && opts) = .panic := by
  suffices InputCrash env buf pre filename symbolServer w ∨ ∃ o name pe peName platform opts w'',
      DumpedFrom env buf pre filename arch symbolServer w o name pe peName platform opts w'' by
    rcases this with h1 | ⟨o, name, pe, peName, platform, opts, w'', hd⟩
    · exact .inl h1
    have := C112_complete env arch symbolServer hp hn hsane hpe hca hd mapping inlines
    rw [this] at h
    exact .inr ⟨o, name, pe, peName, platform, opts, w'', hd, h⟩
  have hpath := dirOf_exists hp hn
  unfold getObjectInfo at h
  split at h
  · rename_i hk
    simp only [fromElf] at h
    split at h
    · cases h
    · rename_i o ho; exact .inr ⟨_, _, _, _, _, _, _, .elf o hk ho⟩
  · rename_i hk
    simp only [getPdbObjectInfo] at h
    split at h
    · cases h
    · rename_i pdb hpdb
      obtain ⟨stem, hb0⟩ := baseName_exists filename
      cases hf : findPeForPdb env.net.cab (parsePe env.parsers) w.disk (pre ++ filename) pdb.debugId with
      | err m => rw [hf] at h; cases h
      | panic => exact .inl (.pdb pdb stem hk hpdb hb0 ((pe_crash_iff env.net.cab (seenPe env.parsers) w.disk pdb.debugId hp hn hb0).mp hf))
      | ok r =>
        have hf' := ((C108_pe_of_pdb env.net.cab (seenPe env.parsers) w.disk pdb.debugId hp hn hb0).1 _).mp hf
        cases r with
        | none => exact .inr ⟨_, _, _, _, _, _, _, .pdb pdb stem hk hpdb hb0 hf'⟩
        | some x =>
          obtain ⟨peName, peBuf⟩ := x
          cases hpe' : env.parsers.pe peBuf with
          | some y => exact .inr ⟨_, _, _, _, _, _, _, .pdbPe pdb y.1 peBuf stem peName y.2 hk hpdb hb0 hf' hpe'⟩
          | none =>
            exfalso
            cases hf' with
            | found _ _ _ _ _ _ _ hpr =>
              obtain ⟨_, pe, h1, _⟩ := hpr
              unfold seenPe at h1
              rw [hpe'] at h1; cases h1
  · rename_i hk
    cases hp' : env.parsers.pe buf with
    | none => exact .inl (.pe hk hp')
    | some x =>
      obtain ⟨pe, rec⟩ := x
      obtain ⟨k1, k2⟩ := hpe pe rec hp'
      have hseen : seenPe env.parsers buf = some ⟨pe.debugId, rec⟩ := by unfold seenPe; rw [hp']; rfl
      by_cases hs : ∃ l, Configured env.home w.disk symbolServer l
      · obtain ⟨servers, hs⟩ := hs
        have hcs : ∀ ss, servers = some ss → PlainCaches ss := by
          rintro ss rfl
          exact hca ss hs
        obtain ⟨c1, c2⟩ := C111_source env.net (seenPe env.parsers) env.cwd (pre ++ filename) buf servers w hseen hpath hsane.cwd k2 k1
          hsane.dirs hsane.room hsane.arrivals hcs
        by_cases hf : ∃ y w', PdbFor env.net env.cwd (pre ++ filename) pe.debugId servers w rec y w'
        · obtain ⟨y, w'', hf⟩ := hf
          right
          by_cases hfound : ∃ b n o fs, y = some (b, n) ∧ env.parsers.pdb b = .ok o ∧ o.functions = .ok fs
          · obtain ⟨b, n, o, fs, rfl, h1, h2⟩ := hfound
            exact ⟨_, _, _, _, _, _, _, .pePdb o pe b n rec servers fs w'' hk hp' hs hf h1 h2⟩
          · exact ⟨_, _, _, _, _, _, _, .pe pe _ rec servers y w'' hk hp' hs hf
              (fun b n o fs h1 h2 h3 => hfound ⟨b, n, o, fs, h1, h2, h3⟩) (afterLast_winPath _)⟩
        · have := c2 hf
          obtain ⟨r, e, hc⟩ := (pdb_crash_iff env.net (seenPe env.parsers) env.cwd (pre ++ filename) buf servers w hseen hpath hsane.cwd k2 k1
            hsane.dirs hsane.room hsane.arrivals hcs).mp this
          simp only at e
          subst e
          exact .inl (.pePdb pe r servers hk hp' hs hc)
      · exact .inl (.config hk ((config_crash_iff _ _ _ hsane.home).mp ((C110_configured _ _ _ hsane.home).2 hs)))
  · rename_i hk
    simp only [fromMacho] at h
    split at h
    · cases h
    · rename_i objects ho
      cases hs : selectObject arch objects with
      | err m => rw [hs] at h; cases h
      | panic =>
        unfold selectObject at hs
        split at hs
        · exact .inl (.macho hk ho)
        · cases hs
        · cases hs
      | ok r =>
        right
        rw [hs] at h
        cases r with
        | none => cases h
        | some o =>
          unfold selectObject at hs
          split at hs
          · cases hs
          · cases hs; exact ⟨_, _, _, _, _, _, _, .machoOnly o hk ho⟩
          · rename_i h1 h2
            simp only [Res.ok.injEq] at hs
            obtain ⟨ha, bs, as, e, hb⟩ := List.find?_eq_some_iff_append.mp hs
            obtain ⟨before, rest, rfl, e1, e2⟩ := List.filterMap_eq_append_iff.mp e
            obtain ⟨skip, x, after, rfl, hskip, hx, e3⟩ := List.filterMap_eq_cons_iff.mp e2
            simp only [id_eq] at hx
            subst hx
            refine ⟨_, _, _, _, _, _, _, .machoOf o (before ++ skip) after hk (by rw [ho]; simp) ?_ (by simpa using ha) ?_⟩
            · by_cases hb : before ++ skip = []
              · right
                rintro rfl
                obtain ⟨rfl, rfl⟩ := List.append_eq_nil_iff.mp hb
                exact h2 o rfl
              · exact .inl hb
            · intro x hx
              rcases List.mem_append.mp hx with hx | hx
              · have : x ∈ bs := by rw [← e1]; simpa using hx
                simpa using hb x this
              · have := hskip _ hx
                simp at this
  · cases h

/-- Getting the contents of the input crashes exactly in the cases described. -/
theorem contents_crash_iff (env : Env) (config : Config) {pre filename : Str} (w : World) (hp : WinDirPart pre) (hn : WinProper filename)
    (hsane : Sane env w.disk) (hi : ∀ id, config.debugId = some id ∨ config.codeId = some id → WinProper id)
    (hca : SaneCaches env config.symbolServer w.disk) :
    (getFromId env config (pre ++ filename) filename w).1 = .panic ↔ ContentsCrash env config (pre ++ filename) filename w := by
  have hid : ∀ id, config.debugId.or config.codeId = some id ↔ (config.debugId = some id ∨ config.debugId = none ∧ config.codeId = some id) := by
    intro id
    cases config.debugId <;> simp
  have hread : readFile env.net.cab w.disk (pre ++ filename) = .panic ↔ CannotRead env.net.cab w.disk (pre ++ filename) := by
    obtain ⟨r1, r2⟩ := readFile_dir env.net.cab w.disk hp hn hsane.dirs
    constructor
    · intro h b hb
      rw [(r1 b).mpr hb] at h
      cases h
    · intro h
      exact r2 fun ⟨b, hb⟩ => h b ((r1 b).mp hb)
  unfold getFromId
  cases ho : config.debugId.or config.codeId with
  | none =>
    have h1 : config.debugId = none ∧ config.codeId = none := by
      cases h1 : config.debugId <;> cases h2 : config.codeId <;> simp_all
    simp only [hread]
    constructor
    · exact .byPath h1.1 h1.2
    · intro h
      cases h with
      | byPath _ _ h => exact h
      | config id h _ => rw [(hid id).mpr h] at ho; cases ho
      | byId id _ h _ => rw [(hid id).mpr h] at ho; cases ho
  | some id =>
    have hid' := (hid id).mp ho
    have hpi := hi id (hid'.imp_right And.right)
    have hsearch := fun servers (hs : Configured env.home w.disk config.symbolServer servers) =>
      search_crash_iff env.net filename id servers w hn hpi hsane.dirs hsane.room hsane.arrivals (fun ss e => hca ss (e ▸ hs))
    simp only
    constructor
    · intro h
      cases hs : getSymServers env.home w.disk config.symbolServer with
      | err m => rw [hs] at h; cases h
      | panic => exact .config id hid' ((config_crash_iff _ _ _ hsane.home).mp hs)
      | ok servers =>
        rw [hs] at h
        have h : (searchFile env.net filename id servers w).1 = .panic := by
          generalize hx : (searchFile env.net filename id servers w).1 = x at h
          match x with
          | .panic => rfl
          | .ok (some _) => simp [hx] at h
          | .ok none => simp [hx] at h
          | .err _ => simp [hx] at h
        obtain ⟨ss, rfl, h2⟩ := (hsearch _ (((C110_configured _ _ _ hsane.home).1 _).mp hs)).mp h
        exact .byId id ss hid' (((C110_configured _ _ _ hsane.home).1 _).mp hs) h2
    · intro h
      cases h with
      | byPath h1 h2 h => rw [h1, h2] at ho; cases ho
      | config _ _ h => rw [(config_crash_iff _ _ _ hsane.home).mpr h]
      | byId id' ss h1 h2 h3 =>
        obtain rfl : id = id' := by
          have := (hid id').mpr h1
          rw [ho] at this; cases this; rfl
        rw [((C110_configured _ _ _ hsane.home).1 _).mpr h2]
        have := (hsearch _ h2).mpr ⟨ss, rfl, h3⟩
        simp only [this]

end WinHost
end DumpSyms
