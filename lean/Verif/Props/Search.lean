import Verif.Spec.Search
import Verif.Props.Reading
import Verif.Props.Cache
/-!
# C45, C46, C80: where a searched file comes from
-/
namespace DumpSyms
namespace Cache
open Path

/-! ### The places in the caches -/

theorem kept_iff {cache name id path : Str} (hn : ProperComp name) (hi : ProperComp id) :
    Kept cache name id path ↔ path = cachePath cache (Utils.getBase name) id name := by
  have hb := getBase_spec name hn
  have hbp := storeDir_proper hb hn
  have he : cachePath cache (Utils.getBase name) id name = Inside (Inside (Inside cache (Utils.getBase name)) id) name := by
    unfold cachePath
    rw [inside_push _ _ (isAbs_proper hbp), inside_push _ _ (isAbs_proper hi), inside_push _ _ (isAbs_proper hn)]
  rw [he]
  constructor
  · rintro ⟨b, h1, h2⟩
    rw [h2, storeDir_unique h1 hb]
  · intro h
    exact ⟨_, hb, h⟩

theorem notCached_iff {d : Disk} {ss : List Server} {name id : Str} (hn : ProperComp name) (hi : ProperComp id) :
    NotCached d ss name id ↔ searchInCache d ss id (Utils.getBase name) name = none := by
  rw [searchInCache_none]
  unfold NotCached
  simp only [kept_iff hn hi, forall_eq]

theorem firstCached_iff {d : Disk} {ss : List Server} {name id path : Str} (hn : ProperComp name) (hi : ProperComp id) :
    FirstCached d ss name id path ↔ searchInCache d ss id (Utils.getBase name) name = some path := by
  have happ : ∀ a b : List Server, searchInCache d (a ++ b) id (Utils.getBase name) name =
      (searchInCache d a id (Utils.getBase name) name).or (searchInCache d b id (Utils.getBase name) name) := by
    intro a b
    unfold searchInCache
    rw [List.filterMap_append, List.map_append, List.find?_append]
  constructor
  · rintro ⟨before, s, after, c, rfl, hb, hc, hk, hx⟩
    rw [kept_iff hn hi] at hk
    rw [happ, (notCached_iff hn hi).mp hb, Option.none_or]
    unfold searchInCache
    rw [List.filterMap_cons_some hc, List.map_cons, List.find?_cons_of_pos (by rw [← hk]; exact hx), hk]
  · intro h
    induction ss with
    | nil => cases h
    | cons s ss ih =>
      have hcons := happ [s] ss
      rw [List.singleton_append] at hcons
      rw [hcons] at h
      cases h1 : searchInCache d [s] id (Utils.getBase name) name with
      | none =>
        rw [h1, Option.none_or] at h
        obtain ⟨before, s', after, c, rfl, hb, hrest⟩ := ih h
        refine ⟨s :: before, s', after, c, rfl, ?_, hrest⟩
        rw [notCached_iff hn hi] at hb ⊢
        have := happ [s] before
        rw [List.singleton_append] at this
        rw [this, h1, hb]; rfl
      | some p =>
        rw [h1, Option.some_or, Option.some.injEq] at h
        subst h
        unfold searchInCache at h1
        cases hc : s.cache with
        | none =>
          rw [List.filterMap_cons_none hc] at h1
          simp at h1
        | some c =>
          rw [List.filterMap_cons_some hc] at h1
          simp only [List.filterMap_nil, List.map_cons, List.map_nil, List.find?_cons, List.find?_nil] at h1
          split at h1
          · rename_i hx
            simp only [Option.some.injEq] at h1
            subst h1
            exact ⟨[], s, ss, c, rfl, (by intro s hs; cases hs), hc, (kept_iff hn hi).mpr rfl, hx⟩
          · cases h1

/-! ### The addresses -/

theorem jobNew_iff {net : Net} {c : Option Str} {u : Str} {j : Job} :
    Job.new net c u = .ok j ↔ net.validUrl u = true ∧ j = ⟨c, u⟩ := by
  unfold Job.new
  split
  · rename_i h; simp [h, eq_comm]
  · rename_i h; simp [h]

theorem dropLastByte_iff {s short : Str} :
    dropLastByte s = .ok short ↔ ∃ c, s = short ++ [c] ∧ c.toNat < 128 := by
  unfold dropLastByte
  cases s using list_snoc_induction with
  | h0 => simp
  | h1 l c =>
    simp only [List.getLast?_append, List.getLast?_singleton, Option.some_or, List.dropLast_concat]
    split
    · rename_i h
      constructor
      · intro e; cases e; exact ⟨c, rfl, h⟩
      · rintro ⟨c', e, _⟩
        rw [(List.append_inj' e rfl).1]
    · rename_i h
      constructor
      · intro e; cases e
      · rintro ⟨c', e, hc⟩
        have := (List.append_inj' e rfl).2
        simp only [List.cons.injEq, and_true] at this
        subst this
        exact absurd hc h

theorem bind_ok_iff {α β : Type} {r : Res α} {f : α → Res β} {b : β} : r.bind f = .ok b ↔ ∃ a, r = .ok a ∧ f a = .ok b := by
  cases r <;> simp [Res.bind]

theorem serverJobs_iff {net : Net} {id base name : Str} {s : Server} {js : List Job} :
    serverJobs net id base name s = .ok js ↔
      ∃ urls, Asked s.server name id urls ∧ (∀ u ∈ urls, net.validUrl u = true) ∧
        js = urls.map fun u => ⟨s.cache.map (cachePath · base id name), u⟩ := by
  unfold serverJobs
  simp only [bind_ok_iff, jobNew_iff]
  constructor
  · rintro ⟨j, ⟨hv, rfl⟩, h⟩
    split at h
    · rename_i hl
      cases h
      exact ⟨_, .packed hl, by intro u hu; rw [List.mem_singleton.mp hu]; exact hv, rfl⟩
    · rename_i hl
      simp only [bind_ok_iff, jobNew_iff, dropLastByte_iff] at h
      obtain ⟨short, ⟨c, rfl, hc⟩, j2, ⟨hv2, rfl⟩, h⟩ := h
      cases h
      refine ⟨_, .both short c rfl ?_ hc, ?_, rfl⟩
      · rintro rfl; exact hl (by simp)
      · intro u hu
        simp only [List.mem_cons, List.not_mem_nil, or_false] at hu
        rcases hu with rfl | rfl
        · exact hv
        · exact hv2
  · rintro ⟨urls, ha, hv, rfl⟩
    cases ha with
    | packed hl =>
      refine ⟨_, ⟨hv _ (by simp [jobUrl]), rfl⟩, ?_⟩
      rw [if_pos hl]
      rfl
    | both stem c e h1 h2 =>
      refine ⟨_, ⟨hv _ (by simp [jobUrl]), rfl⟩, ?_⟩
      rw [if_neg (by rw [e]; simpa using h1)]
      simp only [bind_ok_iff, jobNew_iff, dropLastByte_iff]
      exact ⟨stem, ⟨c, e, h2⟩, _, ⟨hv _ (by simp [jobUrl]), rfl⟩, rfl⟩

theorem askedAll_iff {net : Net} {id name : Str} (hn : ProperComp name) (hi : ProperComp id) {ss : List Server} {jobs : List Job} :
    AskedAll net.validUrl name id ss jobs ↔ getJobs net id (Utils.getBase name) name ss = .ok jobs := by
  constructor
  · intro h
    induction h with
    | nil => rfl
    | cons s ss urls place rest ha hv h0 h1 _ ih =>
      unfold getJobs
      rw [bind_ok_iff]
      refine ⟨_, serverJobs_iff.mpr ⟨urls, ha, hv, rfl⟩, ?_⟩
      rw [ih]
      have : s.cache.map (cachePath · (Utils.getBase name) id name) = place := by
        cases hc : s.cache with
        | none => rw [h0 hc]; rfl
        | some c =>
          obtain ⟨p, hk, hp⟩ := h1 c hc
          rw [hp, (kept_iff hn hi).mp hk]; rfl
      rw [this]
      rfl
  · intro h
    induction ss generalizing jobs with
    | nil => cases h; exact .nil
    | cons s ss ih =>
      unfold getJobs at h
      rw [bind_ok_iff] at h
      obtain ⟨js, h1, h⟩ := h
      rw [bind_ok_iff] at h
      obtain ⟨rest, h2, h⟩ := h
      cases h
      obtain ⟨urls, ha, hv, rfl⟩ := serverJobs_iff.mp h1
      refine .cons s ss urls _ rest ha hv ?_ ?_ (ih h2)
      · intro hc; rw [hc]; rfl
      · intro c hc
        rw [hc]
        exact ⟨_, (kept_iff hn hi).mpr rfl, rfl⟩

theorem getJobs_no_err {net : Net} {id base name : Str} (ss : List Server) (m : Str) : getJobs net id base name ss ≠ .err m := by
  induction ss with
  | nil => intro h; cases h
  | cons s ss ih =>
    have hs : serverJobs net id base name s ≠ .err m := by
      unfold serverJobs Job.new dropLastByte
      intro h
      simp only at h
      repeat' split at h
      all_goals first | cases h | skip
      all_goals simp only [Res.bind] at h
      all_goals (repeat' split at h)
      all_goals cases h
      all_goals (rename_i hx; split at hx <;> cases hx)
    unfold getJobs
    intro h
    cases h1 : serverJobs net id base name s with
    | err m' => rw [h1] at h; cases h; exact hs h1
    | panic => rw [h1] at h; cases h
    | ok js =>
      rw [h1] at h
      cases h2 : getJobs net id base name ss with
      | err m' => rw [h2] at h; cases h; exact ih h2
      | panic => rw [h2] at h; cases h
      | ok rest => rw [h2] at h; cases h

/-! ### Storing -/

theorem refused_iff {raw : Bytes} : Refused raw ↔ (raw.isEmpty || notFound.isPrefixOf raw) = true := by
  unfold Refused notFound
  simp [List.isEmpty_iff]

theorem parent_dirPart {pre id name : Str} (hi : ProperComp id) (hn : ProperComp name) :
    Path.parent (pre ++ id ++ '/' :: name) = some (pre ++ id) := by
  have e : pre ++ id ++ '/' :: name = (pre ++ id ++ ['/']) ++ name := by simp
  have hd : DirPart (pre ++ id ++ ['/']) := .inr (by simp)
  have hf := fileName_dirPart hd hn
  rw [← e] at hf
  unfold fileName at hf
  unfold Path.parent
  have hne : pre ++ id ≠ [] := by
    intro h
    exact hi.1 (List.append_eq_nil_iff.mp h).2
  generalize hl : (components (pre ++ id ++ '/' :: name)).getLast? = l at hf
  match l, hf with
  | some (.normal s), _ =>
    simp only
    rw [e, trimTrail_proper _ _ hn, dropWhile_rev_append _ _ hn.2.1 hd, trimTrail_slash, trimTrail_proper _ _ hi, if_neg]
    rintro ⟨_, h⟩
    exact hne h

/-- The parts of the path of a file in a cache. -/
theorem cachePath_dir {c base id name dir : Str} (hi : ProperComp id) (hn : ProperComp name)
    (h : cachePath c base id name = dir ++ '/' :: name) : Path.parent (dir ++ '/' :: name) = some dir := by
  obtain ⟨pre, _, e⟩ := cachePath_shape c base id name hi hn
  rw [e] at h
  have := (List.append_inj' h rfl).1
  rw [← this]
  exact parent_dirPart hi hn

theorem fetch_none {net : Net} {jobs : List Job} {w : World} (h : net.arrivals jobs = []) :
    fetchData net jobs w = (.ok none, afterHeads w jobs) := by
  simp [fetchData, checkData, h, afterHeads]

theorem fetch_failed {net : Net} {jobs : List Job} {w : World} {j : Job} {js : List Job} (h : net.arrivals jobs = j :: js)
    (hg : net.get j.url = none) : fetchData net jobs w = (.ok none, afterGet w jobs j) := by
  simp [fetchData, checkData, h, hg, afterGet]

theorem fetch_got {net : Net} {jobs : List Job} {w : World} {j : Job} {js : List Job} {st : Nat} {raw : Bytes}
    (h : net.arrivals jobs = j :: js) (hg : net.get j.url = some (st, raw)) :
    fetchData net jobs w = ((copyInCache net j.cache raw w.disk).1.map (fun ok => if ok then some raw else none),
      { afterGet w jobs j with disk := (copyInCache net j.cache raw w.disk).2 }) := by
  simp [fetchData, checkData, h, hg, afterGet]

theorem copy_stored {net : Net} {raw : Bytes} {d : Disk} {dir name : Str} (hr : ¬ Refused raw)
    (hp : Path.parent (dir ++ '/' :: name) = some dir) (hd : (d dir).isSome = true ∨ net.mkdirs dir = true)
    (hc : net.create (dir ++ '/' :: name) = true) (hroom : raw.length ≤ net.room (dir ++ '/' :: name)) :
    copyInCache net (some (dir ++ '/' :: name)) raw d = (.ok true, d.write (dir ++ '/' :: name) raw) := by
  unfold copyInCache
  rw [refused_iff] at hr
  rw [if_neg hr]
  have : dirOk net (dir ++ '/' :: name) d = true := by
    unfold dirOk
    rw [hp]
    simp only [Bool.or_eq_true]
    exact hd
  simp only [this, hc, Bool.not_true, Bool.false_eq_true, if_false]
  rw [Output.dump_fits (by simpa using hroom)]
  simp

theorem copy_panics {net : Net} {raw : Bytes} {d : Disk} {dir name : Str} (hr : ¬ Refused raw)
    (hp : Path.parent (dir ++ '/' :: name) = some dir)
    (h : ¬ (((d dir).isSome = true ∨ net.mkdirs dir = true) ∧ net.create (dir ++ '/' :: name) = true)) :
    (copyInCache net (some (dir ++ '/' :: name)) raw d).1 = .panic := by
  unfold copyInCache
  rw [refused_iff] at hr
  rw [if_neg hr]
  have : dirOk net (dir ++ '/' :: name) d = true ↔ ((d dir).isSome = true ∨ net.mkdirs dir = true) := by
    unfold dirOk
    rw [hp]
    simp only [Bool.or_eq_true]
    exact Iff.rfl
  simp only
  cases h1 : dirOk net (dir ++ '/' :: name) d with
  | false => rfl
  | true =>
    cases h2 : net.create (dir ++ '/' :: name) with
    | false => rfl
    | true => exact absurd ⟨this.mp h1, h2⟩ h

theorem readCabinet_name {cab : Cab} {raw b : Bytes} {name : Str} (hn : ProperComp name) :
    Files.readCabinet cab raw name = .ok (some b) ↔ FileHolds cab name raw b :=
  readCabinet_iff cab raw b [] name (.inl rfl) hn

/-! ### The search -/

theorem search_complete {net : Net} {name id : Str} {servers : Option (List Server)} {w : World} (hn : ProperComp name)
    (hi : ProperComp id) (hd : ∀ q es, w.disk q = some (.dir es) → ∀ e ∈ es, ProperComp e)
    (hroom : ∀ u st raw p, net.get u = some (st, raw) → raw.length ≤ net.room p) (har : ∀ js, ∀ j ∈ net.arrivals js, j ∈ js)
    {x : Option Bytes} {w' : World} (h : Search net name id servers w x w') : searchFile net name id servers w = (.ok x, w') := by
  unfold searchFile
  cases h with
  | noName _ _ h => exact absurd h hn.1
  | noServers => rw [if_neg hn.1]
  | cached ss _ path b h0 h1 h2 =>
    rw [if_neg hn.1]
    rw [firstCached_iff hn hi] at h1
    simp only [h1]
    obtain ⟨pre, hp, e⟩ : ∃ pre, DirPart pre ∧ path = pre ++ name := by
      obtain ⟨_, _, _, c, _, _, _, ⟨base, _, e⟩, _⟩ := (firstCached_iff hn hi).mpr h1
      obtain ⟨pre, hp, e2⟩ := inside_parts (Inside (Inside c base) id) name
      exact ⟨pre, hp, e.trans e2⟩
    rw [e] at h2 ⊢
    rw [((C77_read net.cab w.disk pre name hp hn hd).1 b).mpr h2]
    rfl
  | nowhere ss _ jobs h0 h1 h2 h3 =>
    rw [if_neg hn.1]
    simp only [(notCached_iff hn hi).mp h1, (askedAll_iff hn hi).mp h2, fetch_none h3]
  | failed ss _ jobs j js h0 h1 h2 h3 h4 =>
    rw [if_neg hn.1]
    simp only [(notCached_iff hn hi).mp h1, (askedAll_iff hn hi).mp h2, fetch_failed h3 h4]
  | refused ss _ jobs j js st raw h0 h1 h2 h3 h4 h5 =>
    rw [if_neg hn.1]
    have : copyInCache net j.cache raw w.disk = (.ok false, w.disk) := by
      unfold copyInCache
      rw [if_pos (refused_iff.mp h5)]
    simp only [(notCached_iff hn hi).mp h1, (askedAll_iff hn hi).mp h2, fetch_got h3 h4, this, Res.map_ok]
    rfl
  | fetched ss _ jobs j js st raw b h0 h1 h2 h3 h4 h5 h6 h7 =>
    rw [if_neg hn.1]
    have : copyInCache net j.cache raw w.disk = (.ok true, w.disk) := by
      unfold copyInCache
      rw [if_neg (by rw [← refused_iff]; exact h5), h6]
    simp only [(notCached_iff hn hi).mp h1, (askedAll_iff hn hi).mp h2, fetch_got h3 h4, this, Res.map_ok, if_true,
      (readCabinet_name hn).mpr h7]
    rfl
  | stored ss _ jobs j js st raw b dir h0 h1 h2 h3 h4 h5 h6 h7 h8 h9 =>
    rw [if_neg hn.1]
    have hj : j ∈ jobs := har _ _ (by rw [h3]; simp)
    obtain ⟨s, _, c, _, e⟩ := getJobs_cache ((askedAll_iff hn hi).mp h2) hj h6
    have := copy_stored h5 (cachePath_dir hi hn e.symm) h7 h8 (hroom _ _ _ _ h4)
    rw [← h6] at this
    simp only [(notCached_iff hn hi).mp h1, (askedAll_iff hn hi).mp h2, fetch_got h3 h4, this, Res.map_ok, if_true,
      (readCabinet_name hn).mpr h9]

theorem search_sound {net : Net} {name id : Str} {servers : Option (List Server)} {w : World} (hn : ProperComp name)
    (hi : ProperComp id) (hd : ∀ q es, w.disk q = some (.dir es) → ∀ e ∈ es, ProperComp e)
    (hroom : ∀ u st raw p, net.get u = some (st, raw) → raw.length ≤ net.room p) (har : ∀ js, ∀ j ∈ net.arrivals js, j ∈ js) :
    (∃ x w', Search net name id servers w x w') ∨ (searchFile net name id servers w).1 = .panic := by
  cases servers with
  | none => exact .inl ⟨_, _, .noServers w⟩
  | some ss =>
    cases hsc : searchInCache w.disk ss id (Utils.getBase name) name with
    | some path =>
      obtain ⟨pre, hp, e⟩ : ∃ pre, DirPart pre ∧ path = pre ++ name := by
        obtain ⟨_, _, _, c, _, _, _, ⟨base, _, e⟩, _⟩ := (firstCached_iff hn hi).mpr hsc
        obtain ⟨pre, hp, e2⟩ := inside_parts (Inside (Inside c base) id) name
        exact ⟨pre, hp, e.trans e2⟩
      have hr := C77_read net.cab w.disk pre name hp hn hd
      rw [← e] at hr
      by_cases hx : ∃ b, Files.readFile net.cab w.disk path = .ok b
      · obtain ⟨b, hb⟩ := hx
        exact .inl ⟨_, _, .cached ss w path b hn.1 ((firstCached_iff hn hi).mpr hsc) ((hr.1 b).mp hb)⟩
      · right
        unfold searchFile
        rw [if_neg hn.1]
        simp only [hsc, hr.2 hx, Res.map_panic]
    | none =>
      have hfree := (notCached_iff hn hi).mpr hsc
      cases hj : getJobs net id (Utils.getBase name) name ss with
      | err m => exact absurd hj (getJobs_no_err ss m)
      | panic =>
        right
        unfold searchFile
        rw [if_neg hn.1]
        simp only [hsc, hj]
      | ok jobs =>
        have hall := (askedAll_iff hn hi).mpr hj
        cases har' : net.arrivals jobs with
        | nil => exact .inl ⟨_, _, .nowhere ss w jobs hn.1 hfree hall har'⟩
        | cons j js =>
          cases hg : net.get j.url with
          | none => exact .inl ⟨_, _, .failed ss w jobs j js hn.1 hfree hall har' hg⟩
          | some sr =>
            obtain ⟨st, raw⟩ := sr
            by_cases href : Refused raw
            · exact .inl ⟨_, _, .refused ss w jobs j js st raw hn.1 hfree hall har' hg href⟩
            · by_cases hb : ∃ b, FileHolds net.cab name raw b
              · obtain ⟨b, hb⟩ := hb
                cases hc : j.cache with
                | none => exact .inl ⟨_, _, .fetched ss w jobs j js st raw b hn.1 hfree hall har' hg href hc hb⟩
                | some p =>
                  have hm : j ∈ jobs := har _ _ (by rw [har']; simp)
                  obtain ⟨s, _, c, _, e⟩ := getJobs_cache hj hm hc
                  obtain ⟨pre, _, e2⟩ := cachePath_shape c (Utils.getBase name) id name hi hn
                  have hpp : p = (pre ++ id) ++ '/' :: name := e.trans e2
                  have hpar : Path.parent ((pre ++ id) ++ '/' :: name) = some (pre ++ id) := parent_dirPart hi hn
                  by_cases hok : ((w.disk (pre ++ id)).isSome = true ∨ net.mkdirs (pre ++ id) = true) ∧
                      net.create ((pre ++ id) ++ '/' :: name) = true
                  · exact .inl ⟨_, _, .stored ss w jobs j js st raw b (pre ++ id) hn.1 hfree hall har' hg href (by rw [hc, hpp])
                      hok.1 hok.2 hb⟩
                  · right
                    have := copy_panics (net := net) (d := w.disk) href hpar hok
                    rw [← hpp, ← hc] at this
                    unfold searchFile
                    rw [if_neg hn.1]
                    simp only [hsc, hj, fetch_got har' hg, this, Res.map_panic]
              · right
                have hno : ∀ b, Files.readCabinet net.cab raw name ≠ .ok (some b) :=
                  fun b h => hb ⟨b, (readCabinet_name hn).mp h⟩
                unfold searchFile
                rw [if_neg hn.1]
                simp only [hsc, hj, fetch_got har' hg]
                have hcp : (copyInCache net j.cache raw w.disk).1 = .ok true ∨ (copyInCache net j.cache raw w.disk).1 = .panic := by
                  unfold copyInCache
                  rw [if_neg (by rw [← refused_iff]; exact href)]
                  split
                  · exact .inl rfl
                  · simp only
                    split
                    · exact .inr rfl
                    · split
                      · exact .inr rfl
                      · rw [Output.dump_fits (by simpa using hroom _ _ _ _ hg)]
                        exact .inl rfl
                rcases hcp with h | h
                · simp only [h, Res.map_ok, if_true]
                · simp only [h, Res.map_panic]

/-- What holds of C80: what a search gives and leaves behind is described by `Search`; if nothing is, the search panics.  Missing: the
order of the servers; the one asked to send the file is the one whose answer arrives first. -/
theorem C80_search_partial (net : Net) (name id : Str) (servers : Option (List Server)) (w : World) (hn : ProperComp name)
    (hi : ProperComp id) (hd : ∀ q es, w.disk q = some (.dir es) → ∀ e ∈ es, ProperComp e)
    (hroom : ∀ u st raw p, net.get u = some (st, raw) → raw.length ≤ net.room p) (har : ∀ js, ∀ j ∈ net.arrivals js, j ∈ js) :
    (∀ x w', searchFile net name id servers w = (.ok x, w') ↔ Search net name id servers w x w') ∧
    ((¬ ∃ x w', Search net name id servers w x w') → (searchFile net name id servers w).1 = .panic) := by
  have hs := search_sound (servers := servers) hn hi hd hroom har
  refine ⟨fun x w' => ⟨fun h => ?_, search_complete hn hi hd hroom har⟩, fun h => hs.resolve_left h⟩
  rcases hs with ⟨x', w'', h'⟩ | h'
  · have := search_complete hn hi hd hroom har h'
    rw [h] at this
    cases this
    exact h'
  · rw [h] at h'
    cases h'

/-! ## C45 -/

/-- **C45**: the first cached copy, in the order of the servers, is what is returned; nothing is requested or written. -/
theorem C45_cached (net : Net) (name id path : Str) (ss : List Server) (w : World) (hn : ProperComp name) (hi : ProperComp id)
    (hd : ∀ q es, w.disk q = some (.dir es) → ∀ e ∈ es, ProperComp e) (h : FirstCached w.disk ss name id path) :
    (∀ b, (searchFile net name id (some ss) w).1 = .ok (some b) ↔ PathHolds net.cab w.disk path b) ∧
    (searchFile net name id (some ss) w).1 ≠ .ok none ∧ (searchFile net name id (some ss) w).2 = w := by
  have hsc := (firstCached_iff hn hi).mp h
  obtain ⟨_, _, _, c, _, _, _, ⟨base, _, e⟩, _⟩ := h
  obtain ⟨pre, hp, e2⟩ := inside_parts (Inside (Inside c base) id) name
  have hr := (C77_read net.cab w.disk pre name hp hn hd).1
  rw [← e.trans e2] at hr
  unfold searchFile
  rw [if_neg hn.1]
  simp only [hsc]
  refine ⟨fun b => ?_, ?_, trivial⟩
  · rw [← hr b]
    cases Files.readFile net.cab w.disk path <;> simp
  · cases Files.readFile net.cab w.disk path <;> simp

/-- **C45**: anything is requested or written only when there are servers and no cache has the file. -/
theorem C45_network_last (net : Net) (name id : Str) (servers : Option (List Server)) (w : World) (hn : ProperComp name)
    (hi : ProperComp id) (h : (searchFile net name id servers w).2 ≠ w) :
    ∃ ss, servers = some ss ∧ NotCached w.disk ss name id := by
  obtain ⟨_, ss, e, hx⟩ := search_network_last net name id servers w h
  exact ⟨ss, e, (notCached_iff hn hi).mpr (searchInCache_none.mpr hx)⟩

/-! ## C46 -/

/-- **C46**: a file that was downloaded and stored in a cache is found again, with the same contents and without any request, after any
number of searches of it and of other files. -/
theorem C46_served_back {net : Net} {name id : Str} {ss : List Server} {w w1 w' : World} {b : Bytes} (hn : ProperComp name)
    (hi : ProperComp id) (hd : ∀ q es, w.disk q = some (.dir es) → ∀ e ∈ es, ProperComp e)
    (hroom : ∀ u st raw p, net.get u = some (st, raw) → raw.length ≤ net.room p) (har : ∀ js, ∀ j ∈ net.arrivals js, j ∈ js)
    (h : searchFile net name id (some ss) w = (.ok (some b), w1)) (hst : w1.disk ≠ w.disk) (hl : Later net.cab ss id name w1 w')
    (net' : Net) (hcab : net'.cab = net.cab) : searchFile net' name id (some ss) w' = (.ok (some b), w') := by
  have hs := ((C80_search_partial net name id (some ss) w hn hi hd hroom har).1 _ _).mp h
  cases hs with
  | cached => exact absurd rfl hst
  | fetched => exact absurd rfl hst
  | stored _ _ jobs j js st raw _ dir h0 h1 h2 h3 h4 h5 h6 h7 h8 h9 =>
    have hsc := (notCached_iff hn hi).mp h1
    have hsn := congrArg Prod.snd h
    refine search_served_back (net := net) hi hn (by rw [h]) (searchInCache_none.mp hsc) har ((askedAll_iff hn hi).mp h2)
      (j := j) (by unfold checkData; rw [h3]; rfl) h6 (fun st raw hg => hroom _ _ _ _ hg) ?_ net' hcab
    rw [hsn]
    exact hl

/-- **C46**: an empty answer or a "Symbol Not Found" page is neither stored nor returned. -/
theorem C46_refused (net : Net) (name id : Str) (ss : List Server) (w : World) (hn : ProperComp name) (hi : ProperComp id)
    {jobs : List Job} {j : Job} {js : List Job} {st : Nat} {raw : Bytes} (hfree : NotCached w.disk ss name id)
    (hjobs : AskedAll net.validUrl name id ss jobs) (hj : net.arrivals jobs = j :: js) (hg : net.get j.url = some (st, raw))
    (hraw : Refused raw) : (searchFile net name id (some ss) w).1 = .ok none ∧ (searchFile net name id (some ss) w).2.disk = w.disk := by
  have : copyInCache net j.cache raw w.disk = (.ok false, w.disk) := by
    unfold copyInCache
    rw [if_pos (refused_iff.mp hraw)]
  unfold searchFile
  rw [if_neg hn.1]
  simp only [(notCached_iff hn hi).mp hfree, (askedAll_iff hn hi).mp hjobs, fetch_got hj hg, this, Res.map_ok]
  exact ⟨rfl, rfl⟩

/-! ### Examples -/

/-- Two servers that both have the file, one of them without a cache. -/
def searchServers : List Server := [⟨none, str% "http://a"⟩, ⟨some (str% "/c"), str% "http://b"⟩]

/-- Both servers have the file `m.pd_`; the order in which their answers arrive is given. -/
def searchNet (order : List Job → List Job) : Net where
  validUrl := fun _ => true
  arrivals := fun js => (order js).filter fun j => j.url.getLast? ≠ some '_'
  get := fun u =>
    if u = str% "http://a/m.pdb/ID/m.pdb" then some (200, [1]) else if u = str% "http://b/m.pdb/ID/m.pdb" then some (200, [77, 2]) else none
  mkdirs := fun _ => true
  create := fun _ => true
  room := fun _ => 1000
  capacity := 8192
  cab := exCab

/-- **C80 is false**: with the same servers having the same files, the file comes from the server whose answer arrives first. -/
theorem C80_order_witness :
    (searchFile (searchNet id) (str% "m.pdb") (str% "ID") (some searchServers) noWorld).1 = .ok (some [1]) ∧
    (searchFile (searchNet List.reverse) (str% "m.pdb") (str% "ID") (some searchServers) noWorld).1 = .ok (some [2]) := by decide

example : Search (searchNet List.reverse) (str% "m.pdb") (str% "ID") (some searchServers) noWorld (some [2])
    { disk := noWorld.disk.write (str% "/c/m.pdb/ID/m.pdb") [77, 2],
      log := [.head (str% "http://a/m.pdb/ID/m.pdb"), .head (str% "http://a/m.pdb/ID/m.pd_"), .head (str% "http://b/m.pdb/ID/m.pdb"),
        .head (str% "http://b/m.pdb/ID/m.pd_"), .get (str% "http://b/m.pdb/ID/m.pdb")] } := by
  refine ((C80_search_partial _ _ _ _ _ (by unfold ProperComp; decide) (by unfold ProperComp; decide) (by intro q es h; cases h) ?_ ?_).1 _ _).mp
    (Prod.ext (by decide) ?_)
  · intro u st raw p h
    unfold searchNet at h
    simp only at h
    split at h
    · cases h; simp [searchNet]
    · split at h
      · cases h; simp [searchNet]
      · cases h
  · intro js j h
    have := (List.mem_filter.mp h).1
    simpa using this
  · rfl

/-- The first of two caches that has the file. -/
example : FirstCached (fun p => if p = str% "/d/m.dll/ID/m.dl_" then some (.file [7] true) else none)
    [⟨none, str% "http://a"⟩, ⟨some (str% "/c/"), str% "http://b"⟩, ⟨some (str% "/d"), str% "http://c"⟩] (str% "m.dl_") (str% "ID")
    (str% "/d/m.dll/ID/m.dl_") :=
  (firstCached_iff (by unfold ProperComp; decide) (by unfold ProperComp; decide)).mpr (by decide)

/-! ## C59 -/

/-- **C59 (partial).** With valid addresses, a readable cached file if there is one, usable answers and a working disk, a search for a
name that ends with an ASCII character does not panic.  Missing: names that end with another character
(`C59_multibyte_witness`). -/
theorem C59_no_panic_partial (net : Net) (name id : Str) (servers : Option (List Server)) (w : World) {c : Char}
    (hn : ProperComp name) (hi : ProperComp id) (hd : ∀ q es, w.disk q = some (.dir es) → ∀ e ∈ es, ProperComp e)
    (hurl : ∀ u, net.validUrl u = true) (hl : name.getLast? = some c) (hc : c.toNat < 128)
    (hread : ∀ ss p, servers = some ss → FirstCached w.disk ss name id p → ∃ b, PathHolds net.cab w.disk p b)
    (hans : ∀ u st raw, net.get u = some (st, raw) → ∃ b, FileHolds net.cab name raw b)
    (hm : ∀ p, net.mkdirs p = true) (hcr : ∀ p, net.create p = true)
    (hroom : ∀ u st raw p, net.get u = some (st, raw) → raw.length ≤ net.room p) :
    ∃ r, (searchFile net name id servers w).1 = .ok r := by
  refine search_no_panic net name id servers w hurl hl hc ?_ ?_ hm hcr hroom
  · intro ss p hs hsc
    have hf := (firstCached_iff hn hi).mpr hsc
    obtain ⟨b, hb⟩ := hread ss p hs hf
    obtain ⟨_, _, _, c, _, _, _, ⟨base, _, e⟩, _⟩ := hf
    obtain ⟨pre, hp, e2⟩ := inside_parts (Inside (Inside c base) id) name
    have hr := (C77_read net.cab w.disk pre name hp hn hd).1
    rw [← e.trans e2] at hr
    exact ⟨b, (hr b).mpr hb⟩
  · intro u st raw hg
    obtain ⟨b, hb⟩ := hans u st raw hg
    exact ⟨b, (readCabinet_iff net.cab raw b [] name (.inl rfl) hn).mpr hb⟩

/-- C59 applied: the answer of the only server is a plain file. -/
example : ∃ r, (searchFile (exNet 1000 (200, [1]) (fun _ => none)) (str% "m.pdb") (str% "ID") (some exServers) noWorld).1 = .ok r :=
  C59_no_panic_partial _ _ _ _ _ (c := 'b') (by unfold ProperComp; decide) (by unfold ProperComp; decide) (fun q es h => by cases h)
    (fun _ => rfl) rfl (by decide) (fun ss p _ h => by
      obtain ⟨_, _, _, _, _, _, _, _, h⟩ := h; cases h)
    (fun u st raw h => ⟨raw, .plain rfl⟩) (fun _ => rfl) (fun _ => rfl) (fun u st raw p h => by
      simp only [exNet] at h
      split at h <;> cases h; exact (by decide : 1 ≤ 1000))

end Cache

end DumpSyms
