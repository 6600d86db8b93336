import Verif.Spec.Crash
import Verif.Props.Inputs
/-!
# When the searches for files crash
-/
namespace DumpSyms
open Path

theorem cannotRead_iff {cab : Cab} {d : Disk} {path : Str}
    (hf : ∀ raw r, d path = some (.file raw r) → ∃ pre name, path = pre ++ name ∧ DirPart pre ∧ ProperComp name)
    (hd : ∀ q es, d q = some (.dir es) → ∀ e ∈ es, ProperComp e) :
    Files.readFile cab d path = .panic ↔ CannotRead cab d path := by
  obtain ⟨r1, r2⟩ := C77_read_any cab d path hf hd
  constructor
  · intro h b hb
    rw [(r1 b).mpr hb] at h
    cases h
  · intro h
    exact r2 fun ⟨b, hb⟩ => h b ((r1 b).mp hb)

namespace Cache

theorem serverJobs_panic {net : Net} {id base name : Str} {s : Server} (hn : name ≠ []) :
    serverJobs net id base name s = .panic ↔ CannotAsk net.validUrl s.server name id := by
  obtain ⟨stem, c, rfl⟩ : ∃ stem c, name = stem ++ [c] := ⟨name.dropLast, name.getLast hn, (List.dropLast_concat_getLast hn).symm⟩
  have hu : ∀ c' stem', stem ++ [c] = stem' ++ [c'] → stem' = stem ∧ c' = c := by
    intro c' stem' e
    have := List.append_inj' e rfl
    simp only [List.cons.injEq, and_true] at this
    exact ⟨this.1.symm, this.2.symm⟩
  unfold serverJobs Job.new dropLastByte
  simp only [List.getLast?_append, List.getLast?_singleton, Option.some_or, Option.some.injEq, List.dropLast_concat]
  constructor
  · intro h
    by_cases h1 : net.validUrl (jobUrl s.server (stem ++ [c]) id (stem ++ [c])) = true
    · rw [if_pos h1] at h
      simp only [Res.bind] at h
      by_cases h2 : c = '_'
      · rw [if_pos h2] at h; cases h
      · rw [if_neg h2] at h
        by_cases h3 : c.toNat < 128
        · rw [if_pos h3] at h
          simp only at h
          by_cases h4 : net.validUrl (jobUrl s.server (stem ++ [c]) id (stem ++ ['_'])) = true
          · rw [if_pos h4] at h; cases h
          · exact .packedUrl stem c rfl h2 ((Bool.not_eq_true _).mp h4)
        · exact .multibyte stem c rfl (by omega)
    · exact .url ((Bool.not_eq_true _).mp h1)
  · intro h
    cases h with
    | url h =>
      have h : net.validUrl (jobUrl s.server (stem ++ [c]) id (stem ++ [c])) = false := h
      simp [h, Res.bind]
    | packedUrl stem' c' e h2 h4 =>
      obtain ⟨rfl, rfl⟩ := hu _ _ e
      have h4 : net.validUrl (jobUrl s.server (stem' ++ [c']) id (stem' ++ ['_'])) = false := h4
      by_cases h1 : net.validUrl (jobUrl s.server (stem' ++ [c']) id (stem' ++ [c'])) = true
      · by_cases h3 : c'.toNat < 128 <;> simp [h1, h2, h3, h4, Res.bind]
      · simp [h1, Res.bind]
    | multibyte stem' c' e h3 =>
      obtain ⟨rfl, rfl⟩ := hu _ _ e
      have h2 : c' ≠ '_' := by rintro rfl; revert h3; decide
      by_cases h1 : net.validUrl (jobUrl s.server (stem' ++ [c']) id (stem' ++ [c'])) = true
      · simp [h1, h2, show ¬ c'.toNat < 128 by omega, Res.bind]
      · simp [h1, Res.bind]

theorem getJobs_panic {net : Net} {id base name : Str} (hn : name ≠ []) (ss : List Server) :
    getJobs net id base name ss = .panic ↔ ∃ s ∈ ss, CannotAsk net.validUrl s.server name id := by
  induction ss with
  | nil => simp [getJobs]
  | cons s ss ih =>
    have h1 : ∀ m, serverJobs net id base name s ≠ .err m := by
      intro m h
      have := getJobs_no_err (net := net) (id := id) (base := base) (name := name) [s] m
      simp only [getJobs, h, Res.bind] at this
      exact this rfl
    have h2 : (∃ x ∈ s :: ss, CannotAsk net.validUrl x.server name id) ↔
        serverJobs net id base name s = .panic ∨ getJobs net id base name ss = .panic := by
      rw [ih, serverJobs_panic hn]
      simp
    rw [h2, getJobs]
    generalize serverJobs net id base name s = x at h1
    cases x with
    | err m => exact absurd rfl (h1 m)
    | panic => simp [Res.bind]
    | ok js =>
      generalize getJobs net id base name ss = y
      cases y <;> simp [Res.bind]

/-- A search crashes exactly in the cases described. -/
theorem search_crash_iff (net : Net) (name id : Str) (servers : Option (List Server)) (w : World) (hn : ProperComp name)
    (hi : ProperComp id) (hd : ∀ q es, w.disk q = some (.dir es) → ∀ e ∈ es, ProperComp e)
    (hroom : ∀ u st raw p, net.get u = some (st, raw) → raw.length ≤ net.room p) (har : ∀ js, ∀ j ∈ net.arrivals js, j ∈ js) :
    (searchFile net name id servers w).1 = .panic ↔ ∃ ss, servers = some ss ∧ SearchCrash net name id ss w := by
  have hcached : ∀ ss path, FirstCached w.disk ss name id path →
      (Files.readFile net.cab w.disk path = .panic ↔ CannotRead net.cab w.disk path) := by
    rintro ss path ⟨_, _, _, c, _, _, _, ⟨base, _, e⟩, _⟩
    obtain ⟨pre, hp, e2⟩ := inside_parts (Inside (Inside c base) id) name
    exact cannotRead_iff (fun _ _ _ => ⟨pre, name, e.trans e2, hp, hn⟩) hd
  constructor
  · intro h
    have hno : ∀ x w', ¬ Search net name id servers w x w' := by
      intro x w' hs
      rw [search_complete hn hi hd hroom har hs] at h
      cases h
    cases servers with
    | none => exact absurd (.noServers w) (hno _ _)
    | some ss =>
      refine ⟨ss, rfl, ?_⟩
      cases hsc : searchInCache w.disk ss id (Utils.getBase name) name with
      | some path =>
        have hf := (firstCached_iff hn hi).mpr hsc
        exact .cached path hf fun b hb => hno _ _ (.cached ss w path b hn.1 hf hb)
      | none =>
        have hfree := (notCached_iff hn hi).mpr hsc
        cases hj : getJobs net id (Utils.getBase name) name ss with
        | err m => exact absurd hj (getJobs_no_err ss m)
        | panic =>
          obtain ⟨s, hs, ha⟩ := (getJobs_panic hn.1 ss).mp hj
          exact .ask s hfree hs ha
        | ok jobs =>
          have hall := (askedAll_iff hn hi).mpr hj
          cases har' : net.arrivals jobs with
          | nil => exact absurd (.nowhere ss w jobs hn.1 hfree hall har') (hno _ _)
          | cons j js =>
            cases hg : net.get j.url with
            | none => exact absurd (.failed ss w jobs j js hn.1 hfree hall har' hg) (hno _ _)
            | some sr =>
              obtain ⟨st, raw⟩ := sr
              by_cases href : Refused raw
              · exact absurd (.refused ss w jobs j js st raw hn.1 hfree hall har' hg href) (hno _ _)
              · by_cases hb : ∃ b, FileHolds net.cab name raw b
                · obtain ⟨b, hb⟩ := hb
                  cases hc : j.cache with
                  | none => exact absurd (.fetched ss w jobs j js st raw b hn.1 hfree hall har' hg href hc hb) (hno _ _)
                  | some p =>
                    have hm : j ∈ jobs := har _ _ (by rw [har']; simp)
                    obtain ⟨s, _, c, _, e⟩ := getJobs_cache hj hm hc
                    obtain ⟨pre, _, e2⟩ := cachePath_shape c (Utils.getBase name) id name hi hn
                    have hpp : p = (pre ++ id) ++ '/' :: name := e.trans e2
                    by_cases hok : ((w.disk (pre ++ id)).isSome = true ∨ net.mkdirs (pre ++ id) = true) ∧
                        net.create ((pre ++ id) ++ '/' :: name) = true
                    · exact absurd (.stored ss w jobs j js st raw b (pre ++ id) hn.1 hfree hall har' hg href (by rw [hc, hpp])
                        hok.1 hok.2 hb) (hno _ _)
                    · refine .full jobs js j st raw (pre ++ id) hfree hall har' hg href (by rw [hc, hpp]) ?_
                      by_cases hcr : net.create ((pre ++ id) ++ '/' :: name) = true
                      · left
                        refine ⟨?_, ?_⟩
                        · cases hx : w.disk (pre ++ id) with
                          | none => rfl
                          | some n => exact absurd ⟨.inl (by rw [hx]; rfl), hcr⟩ hok
                        · cases hx : net.mkdirs (pre ++ id) with
                          | false => rfl
                          | true => exact absurd ⟨.inr hx, hcr⟩ hok
                      · exact .inr (by simpa using hcr)
                · exact .cabinet jobs js j st raw hfree hall har' hg href fun b h => hb ⟨b, h⟩
  · rintro ⟨ss, rfl, h⟩
    unfold searchFile
    rw [if_neg hn.1]
    cases h with
    | cached path hf hr => simp only [(firstCached_iff hn hi).mp hf, (hcached ss path hf).mpr hr, Res.map_panic]
    | ask s hfree hs ha => simp only [(notCached_iff hn hi).mp hfree, (getJobs_panic hn.1 ss).mpr ⟨s, hs, ha⟩]
    | full jobs js j st raw dir hfree hall har' hg href hc hx =>
      have hj := (askedAll_iff hn hi).mp hall
      have hm : j ∈ jobs := har _ _ (by rw [har']; simp)
      obtain ⟨s, _, c, _, e⟩ := getJobs_cache hj hm hc
      have hpar := cachePath_dir hi hn e.symm
      have := copy_panics (net := net) (d := w.disk) href hpar (by
        rintro ⟨h1, h2⟩
        rcases hx with ⟨h3, h4⟩ | h3
        · rcases h1 with h1 | h1
          · rw [h3] at h1; cases h1
          · rw [h4] at h1; cases h1
        · rw [h3] at h2; cases h2)
      rw [← hc] at this
      simp only [(notCached_iff hn hi).mp hfree, hj, fetch_got har' hg, this, Res.map_panic]
    | cabinet jobs js j st raw hfree hall har' hg href hb =>
      have hj := (askedAll_iff hn hi).mp hall
      simp only [(notCached_iff hn hi).mp hfree, hj, fetch_got har' hg]
      have hcp : (copyInCache net j.cache raw w.disk).1 = .ok true ∨ (copyInCache net j.cache raw w.disk).1 = .panic := by
        unfold copyInCache
        rw [if_neg (by rw [← refused_iff]; exact href)]
        split
        · exact .inl rfl
        · simp only
          split
          · exact .inr rfl
          · split
            · exact .inr rfl
            · rw [Output.dump_fits (by simpa using hroom _ _ _ _ hg)]
              exact .inl rfl
      rcases hcp with h | h
      · simp only [h, Res.map_ok, if_true]
        split
        · rename_i b hb'; exact absurd ((readCabinet_name hn).mp hb') (hb b)
        · rfl
      · simp only [h, Res.map_panic]

theorem copyInCache_no_err (net : Net) (path : Option Str) (data : Bytes) (d : Disk) (m : Str) : (copyInCache net path data d).1 ≠ .err m := by
  unfold copyInCache
  split
  · exact fun h => by cases h
  · split
    · exact fun h => by cases h
    · split
      · exact fun h => by cases h
      · split
        · exact fun h => by cases h
        · simp only
          split <;> exact fun h => by cases h

theorem search_no_err (net : Net) (name id : Str) (servers : Option (List Server)) (w : World) (m : Str) :
    (searchFile net name id servers w).1 ≠ .err m := by
  intro h
  unfold searchFile at h
  split at h
  · cases h
  · split at h
    · cases h
    · simp only at h
      split at h
      · rename_i path _
        simp only at h
        have : ∀ m, Files.readFile net.cab w.disk path ≠ .err m := by
          intro m
          unfold Files.readFile
          simp only
          generalize (match w.disk path with | none => Res.panic | some (.dir _) => Files.macBundle w.disk path | some (.file _ _) => .ok path) = t
          repeat' split
          all_goals simp
        generalize Files.readFile net.cab w.disk path = x at h this
        cases x with
        | ok _ => cases h
        | err m' => exact this m' rfl
        | panic => cases h
      · split at h
        · have hf : ∀ jobs w m, (fetchData net jobs w).1 ≠ .err m := by
            intro jobs w m
            unfold fetchData
            simp only
            split
            · exact fun h => by cases h
            · split
              · exact fun h => by cases h
              · rename_i buf _
                have hc := copyInCache_no_err net (by assumption : Job).cache buf w.disk
                generalize (copyInCache net _ buf w.disk).1 = x at hc
                cases x with
                | ok _ => exact fun h => by cases h
                | panic => exact fun h => by cases h
                | err m' => exact absurd rfl (hc m')
          split at h
          · split at h <;> cases h
          · cases h
          · rename_i hx; exact hf _ _ _ hx
          · cases h
        · rename_i hj; exact getJobs_no_err _ _ hj
        · cases h

theorem config_crash_iff (home : Option Str) (d : Disk) (given : Option Str) :
    getSymServers home d given = .panic ↔ ConfigCrash home d given := by
  have hconf : ∀ h : Str, Path.push (Path.push h (str% ".dump_syms")) (str% "config") = Inside (Inside h (str% ".dump_syms")) (str% "config") := by
    intro h
    rw [inside_push (by decide), inside_push (by decide)]
  cases given with
  | some s => simp [getSymServers, ConfigCrash]
  | none =>
    cases home with
    | none => simp [getSymServers, readConfig, ConfigCrash]
    | some h =>
      simp only [getSymServers, readConfig, hconf, ConfigCrash, true_and, Option.some.injEq]
      cases hd : d (Inside (Inside h (str% ".dump_syms")) (str% "config")) with
      | none =>
        simp only [reduceCtorEq, false_iff]
        rintro ⟨_, _, rfl, h1, _⟩
        rw [hd] at h1; cases h1
      | some n =>
        match n, hd with
        | .file b true, hd =>
          simp only
          constructor
          · intro h1
            refine ⟨h, _, rfl, hd, fun raw e => ?_⟩
            cases e
            split at h1
            · cases h1
            · assumption
          · rintro ⟨_, _, rfl, h1, h2⟩
            rw [hd] at h1; cases h1
            rw [h2 _ rfl]
        | .file b false, hd =>
          simp only [true_iff]
          exact ⟨h, _, rfl, hd, fun raw e => by cases e⟩
        | .dir es, hd =>
          simp only [true_iff]
          exact ⟨h, _, rfl, hd, fun raw e => by cases e⟩

theorem getSymServers_no_err (home : Option Str) (d : Disk) (given : Option Str) (m : Str) : getSymServers home d given ≠ .err m := by
  intro h
  by_cases hx : ∃ l, Configured home d given l
  · obtain ⟨l, hl⟩ := hx
    rw [((C44_configured home d given).1 l).mpr hl] at h; cases h
  · rw [(C44_configured home d given).2 hx] at h; cases h

end Cache

namespace WinUtils

theorem pe_crash_iff (cab : Cab) (parse : ParsePe) (d : Disk) (id : Str) (hd : ∀ q es, d q = some (.dir es) → ∀ e ∈ es, ProperComp e)
    {pre name : Str} (hp : DirPart pre) (hn : ProperComp name) :
    findPeForPdb cab parse d (pre ++ name) id = .panic ↔ PeCrash cab parse d (pre ++ name) id := by
  obtain ⟨c1, c2⟩ := C43_pe_of_pdb cab parse d id hd hp hn
  obtain ⟨stem, hb⟩ := baseName_exists name
  constructor
  · intro h
    have hno : ∀ x, ¬ PeFor cab parse d (pre ++ name) id x := by
      intro x hx
      rw [(c1 x).mpr hx] at h; cases h
    have key : ∀ exts before, peExts = before ++ exts → (∀ e ∈ before, NoPe cab parse d id (pre ++ (stem ++ '.' :: e.1))) →
        PeCrash cab parse d (pre ++ name) id := by
      intro exts
      induction exts with
      | nil =>
        intro before e hbef
        exact absurd (.none pre name stem rfl hp hn hb (by rw [e]; simpa using hbef)) (hno _)
      | cons x exts ih =>
        intro before e hbef
        by_cases hf : IsFile d (pre ++ (stem ++ '.' :: x.1))
        · by_cases hr : ∃ b, PathHolds cab d (pre ++ (stem ++ '.' :: x.1)) b
          · obtain ⟨b, hr⟩ := hr
            by_cases hpe : ∃ pe, parse b = some pe ∧ pe.debugId = id
            · exact absurd (.found pre name stem before x.1 x.2 exts b rfl hp hn hb e hbef ⟨hf, hr, hpe⟩) (hno _)
            · refine ih (before ++ [x]) (by rw [e]; simp) ?_
              intro y hy
              rcases List.mem_append.mp hy with hy | hy
              · exact hbef y hy
              · rw [List.mem_singleton.mp hy]
                exact .inr ⟨b, hr, fun pe h1 h2 => hpe ⟨pe, h1, h2⟩⟩
          · exact .mk pre name stem before x.1 x.2 exts rfl hp hn hb e hbef hf fun b h => hr ⟨b, h⟩
        · refine ih (before ++ [x]) (by rw [e]; simp) ?_
          intro y hy
          rcases List.mem_append.mp hy with hy | hy
          · exact hbef y hy
          · rw [List.mem_singleton.mp hy]
            exact .inl hf
    exact key peExts [] rfl (by simp)
  · intro h
    cases h with
    | mk pre' name' stem' before ext rep after e hp' hn' hb' h1 h2 h3 h4 =>
      obtain ⟨rfl, rfl⟩ := dirPart_unique e hp hp' hn hn'
      obtain ⟨n1, hn1, hb1, e1⟩ := findLoop_skip cab parse d id hd hp before
        (fun y hy => goodExts y (by rw [h1]; simp [hy])) h2 (ext :: after.map (·.1)) hn hb'
      unfold findPeForPdb
      rw [show [str% "dll", str% "dl_", str% "exe", str% "ex_"] = peExts.map (·.1) from rfl, h1, List.map_append, List.map_cons, e1]
      rcases (findLoop_step cab parse d id hd hp hn1 hb1 (goodExts (ext, rep) (by rw [h1]; simp)) (after.map (·.1))).2.2 with k | ⟨b, k⟩ | k
      · rcases k with k | ⟨b, k, _⟩
        · exact absurd h3 k
        · exact absurd k (h4 b)
      · exact absurd k.2.1 (h4 b)
      · exact k

theorem pdb_crash_iff (net : Cache.Net) (parse : ParsePe) (cwd path : Str) (buf : Bytes)
    (servers : Option (List Cache.Server)) (w : Cache.World) {pe : Pe} (hpe : parse buf = some pe) (hpath : Usable path) (hcwd : Usable cwd)
    (hrec : ∀ r, pe.debugFileName = some r → Usable (slashes r)) (hi : ProperComp pe.debugId)
    (hd : ∀ q es, w.disk q = some (.dir es) → ∀ e ∈ es, ProperComp e)
    (hroom : ∀ u st raw p, net.get u = some (st, raw) → raw.length ≤ net.room p) (har : ∀ js, ∀ j ∈ net.arrivals js, j ∈ js) :
    (getPePdbBuf net parse cwd path buf servers w).1 = .panic ↔
      ∃ r, pe.debugFileName = some r ∧ PdbCrash net cwd path pe.debugId r servers w := by
  obtain ⟨c1, c2⟩ := C58_source_partial net parse cwd path buf servers w hpe hpath hcwd hrec hi hd hroom har
  have hus : ∀ r name, pe.debugFileName = some r → fileName (slashes r) = some name → ∃ pre, DirPart pre ∧ slashes r = pre ++ name := by
    intro r name hr hf
    rcases hrec r hr with h | ⟨pre, c, e, hp, hc⟩
    · rw [h] at hf; cases hf
    · rw [e, fileName_dirPart hp hc] at hf
      cases hf
      exact ⟨pre, hp, e⟩
  constructor
  · intro h
    have hno : ∀ y w', ¬ PdbFor net cwd path pe.debugId servers w pe.debugFileName y w' := by
      intro y w' hy
      have := (c1 _ _).mpr ⟨y, hy, rfl⟩
      rw [this] at h; cases h
    cases hr : pe.debugFileName with
    | none => rw [hr] at hno; exact absurd .unnamed (hno _ _)
    | some r =>
      rw [hr] at hno
      refine ⟨r, rfl, ?_⟩
      cases hf : fileName (slashes r) with
      | none => exact absurd (.noFile r hf) (hno _ _)
      | some name =>
        obtain ⟨dir, h1⟩ := dirOf_exists hpath
        obtain ⟨cdir, h2⟩ := dirOf_exists hcwd
        obtain ⟨stem, h3⟩ := baseName_exists name
        have hpl : Places cwd path (slashes r) name _ := .mk dir cdir stem h1 h2 h3
        generalize [slashes r, dir ++ name, dir ++ (stem ++ str% ".pd_"), cdir ++ name] = ps at hpl
        have hn := fileName_proper_of hf
        cases hfind : ps.find? w.disk.isFile with
        | some p =>
          obtain ⟨hp, before, after, e, hb⟩ := List.find?_eq_some_iff_append.mp hfind
          have hb' : ∀ q ∈ before, ¬ IsFile w.disk q := by
            intro q hq h
            have := hb q hq
            rw [isFile_iff.mpr h] at this
            cases this
          exact .onDisk name ps before p after hf hpl e hb' (isFile_iff.mp hp) fun b hx =>
            hno _ _ (.onDisk r name ps before p after b hf hpl e hb' (isFile_iff.mp hp) hx)
        | none =>
          have hnf : ∀ q ∈ ps, ¬ IsFile w.disk q := by
            intro q hq h
            have := List.find?_eq_none.mp hfind q hq
            exact this (isFile_iff.mpr h)
          have hs : ∀ x w', ¬ Cache.Search net name pe.debugId servers w x w' :=
            fun x w' hx => hno _ _ (.searched r name ps x w' hf hpl hnf hx)
          have hs2 := (Cache.C80_search_partial net name pe.debugId servers w hn hi hd hroom har).2 fun ⟨x, w', hx⟩ => hs x w' hx
          obtain ⟨ss, e1, e2⟩ := (Cache.search_crash_iff net name pe.debugId servers w hn hi hd hroom har).mp hs2
          exact .searched name ps ss hf hpl hnf e1 e2
  · rintro ⟨r, hr, h⟩
    unfold getPePdbBuf
    cases h with
    | onDisk name ps before p after hf hpl e hb hp hx =>
      have := ((C57_places_partial net.cab w.disk hd hf (hus r name hr hf) hpl).1 before p after e hb hp).2 fun ⟨b, h⟩ => hx b h
      simp only [hpe, hr, this]
    | searched name ps ss hf hpl hnf e1 e2 =>
      have hn := fileName_proper_of hf
      have := (C57_places_partial net.cab w.disk hd hf (hus r name hr hf) hpl).2 hnf
      have hs := (Cache.search_crash_iff net name pe.debugId servers w hn hi hd hroom har).mpr ⟨ss, e1, e2⟩
      simp only [hpe, hr, this, if_neg hn.1, hs, Res.map_panic]

end WinUtils
end DumpSyms
