import Verif.Proof.Cache
import Verif.Proof.Files
/-!
# C44, C45, C46, C47: symbol servers and the local cache
-/
namespace DumpSyms
namespace Cache
open Path

/-! ## C44 -/

theorem sep_fields {s : Str} {fs : List Str} :
    Fields (fun c => c = ';' ∨ c = '\n') s fs ↔ splitOn (fun c => c == ';' || c == '\n') s = fs :=
  fields_iff (by simp) s fs

theorem parseSympath_iff {home : Option Str} {s : Str} {l : List Server} :
    parseSympath home s = l ↔
      ∃ es, Fields (fun c => c = ';' ∨ c = '\n') s es ∧ Entries home es (l.map (fun v => (v.cache, v.server))) := by
  constructor
  · rintro rfl
    exact ⟨_, sep_fields.mpr rfl, (entries_iff _ _).mpr rfl⟩
  · rintro ⟨es, h1, h2⟩
    rw [sep_fields] at h1
    rw [entries_iff] at h2
    unfold parseSympath
    rw [h1]
    have hinj : ∀ {a b : List Server}, a.map (fun v => (v.cache, v.server)) = b.map (fun v => (v.cache, v.server)) → a = b := by
      intro a b h
      have := congrArg (List.map (fun (v : Option Str × Str) => (⟨v.1, v.2⟩ : Server))) h
      simpa [List.map_map, Function.comp_def] using this
    exact hinj h2

/-- **C44**: the servers found in a symbol path. -/
theorem C44_parse (home : Option Str) (s : Str) (l : List Server) :
    readConfigFromStr home s = some l ↔ l ≠ [] ∧
      ∃ es, Fields (fun c => c = ';' ∨ c = '\n') s es ∧ Entries home es (l.map (fun v => (v.cache, v.server))) := by
  rw [← parseSympath_iff]
  unfold readConfigFromStr
  simp only
  split
  · rename_i h
    constructor
    · intro h'; cases h'
    · rintro ⟨h1, rfl⟩; exact absurd h h1
  · rename_i h
    constructor
    · intro h'
      obtain rfl := Option.some.inj h'
      exact ⟨h, rfl⟩
    · rintro ⟨_, rfl⟩; rfl

/-- **C44**: the blanks that are ignored around fields are the 25 characters that Unicode calls white space. -/
theorem C44_blanks (c : Char) : isWhitespace c = true ↔ c.toNat ∈ [0x9, 0xA, 0xB, 0xC, 0xD, 0x20, 0x85, 0xA0, 0x1680, 0x2000, 0x2001, 0x2002,
    0x2003, 0x2004, 0x2005, 0x2006, 0x2007, 0x2008, 0x2009, 0x200A, 0x2028, 0x2029, 0x202F, 0x205F, 0x3000] := by
  simp only [isWhitespace, Bool.or_eq_true, Bool.and_eq_true, decide_eq_true_eq, List.mem_cons, List.not_mem_nil, or_false]
  omega

/-- **C44**: no configuration is found exactly when no entry has one of the three forms. -/
theorem C44_none (home : Option Str) (s : Str) :
    readConfigFromStr home s = none ↔ ∃ es, Fields (fun c => c = ';' ∨ c = '\n') s es ∧ Entries home es [] := by
  have := parseSympath_iff (home := home) (s := s) (l := [])
  rw [List.map_nil] at this
  rw [← this]
  unfold readConfigFromStr
  simp only
  split
  · rename_i h; simp [h]
  · rename_i h; simp [h]

example : readConfigFromStr (some (str% "/h")) (str% "SRV*~/c * http://a ;foo\nsrv* http://b;srv*a*b*c; sRv ") =
    some [⟨some (str% "/h/c"), str% "http://a"⟩, ⟨none, str% "http://b"⟩, ⟨none, defaultStore⟩] := by decide
example : readConfigFromStr none (str% "srv*~/c*x") = some [⟨some (str% "~/c"), str% "x"⟩] ∧
    readConfigFromStr none (str% "server*x;;") = none := by decide

/-! ## C45 -/

/-- Where a file is in a cache. -/
theorem C45_layout (abs : Bool) (cs : List Str) (base id name : Str) (h : ∀ x ∈ cs, ProperComp x) (hb : ProperComp base)
    (hi : ProperComp id) (hn : ProperComp name) :
    cachePath (renderPath abs cs) base id name = renderPath abs (cs ++ [base, id, name]) := by
  unfold cachePath
  have h1 : ∀ x ∈ cs ++ [base], ProperComp x := by
    intro x hx
    rcases List.mem_append.mp hx with hx | hx
    · exact h x hx
    · rw [List.mem_singleton.mp hx]; exact hb
  have h2 : ∀ x ∈ cs ++ [base] ++ [id], ProperComp x := by
    intro x hx
    rcases List.mem_append.mp hx with hx | hx
    · exact h1 x hx
    · rw [List.mem_singleton.mp hx]; exact hi
  rw [push_render abs cs base h hb, push_render abs _ id h1 hi, push_render abs _ name h2 hn]
  simp

/-- For C45 (`Props/Search`): the first cached copy, in the order of the servers, is returned; nothing is requested or written. -/
theorem search_cached (net : Net) (name id : Str) (before after : List Server) (s : Server) (c : Str) (w : World)
    (hn : name ≠ []) (hc : s.cache = some c) (hex : (w.disk (cachePath c (Utils.getBase name) id name)).isSome)
    (hb : ∀ s' ∈ before, ∀ c', s'.cache = some c' → w.disk (cachePath c' (Utils.getBase name) id name) = none) :
    searchFile net name id (some (before ++ s :: after)) w =
      ((Files.readFile net.cab w.disk (cachePath c (Utils.getBase name) id name)).map some, w) := by
  unfold searchFile
  rw [if_neg hn]
  simp only
  have : searchInCache w.disk (before ++ s :: after) id (Utils.getBase name) name =
      some (cachePath c (Utils.getBase name) id name) := by
    unfold searchInCache
    rw [List.filterMap_append, List.map_append, List.find?_append, List.filterMap_cons_some hc, List.map_cons,
      List.find?_cons_of_pos (by exact hex), Option.or_eq_some_iff]
    refine .inr ⟨?_, rfl⟩
    rw [List.find?_eq_none]
    intro p hp
    obtain ⟨c', hc', rfl⟩ := List.mem_map.mp hp
    obtain ⟨s', hs', hcs⟩ := List.mem_filterMap.mp hc'
    unfold Disk.exists?
    rw [hb s' hs' c' hcs]
    simp
  rw [this]

theorem fetchData_log (net : Net) (jobs : List Job) (w : World) : ∃ l, (fetchData net jobs w).2.log = w.log ++ l := by
  unfold fetchData
  simp only
  split
  · exact ⟨_, rfl⟩
  · split
    · exact ⟨_, by simp only [List.append_assoc]; rfl⟩
    · exact ⟨_, by simp only [List.append_assoc]; rfl⟩

/-- For C45: anything is requested or written only when there are servers and no cache has the file. -/
theorem search_network_last (net : Net) (name id : Str) (servers : Option (List Server)) (w : World)
    (h : (searchFile net name id servers w).2 ≠ w) :
    name ≠ [] ∧ ∃ ss, servers = some ss ∧
      ∀ s ∈ ss, ∀ c, s.cache = some c → w.disk (cachePath c (Utils.getBase name) id name) = none := by
  unfold searchFile at h
  split at h
  · exact absurd rfl h
  · rename_i hn
    refine ⟨hn, ?_⟩
    split at h
    · exact absurd rfl h
    · rename_i ss
      refine ⟨ss, rfl, ?_⟩
      intro s hs c hc
      simp only at h
      cases hsc : searchInCache w.disk ss id (Utils.getBase name) name with
      | some p => rw [hsc] at h; exact absurd rfl h
      | none =>
        unfold searchInCache at hsc
        rw [List.find?_eq_none] at hsc
        have := hsc _ (List.mem_map.mpr ⟨c, List.mem_filterMap.mpr ⟨s, hs, hc⟩, rfl⟩)
        simpa [Disk.exists?] using this

/-- **C45**: nothing is returned, requested or written without a name or without servers. -/
theorem C45_nothing (net : Net) (name id : Str) (servers : Option (List Server)) (w : World)
    (h : name = [] ∨ servers = none) : searchFile net name id servers w = (.ok none, w) := by
  unfold searchFile
  split
  · rfl
  · rename_i hn
    rcases h with h | h
    · exact absurd h hn
    · rw [h]

/-! ## C46 -/

theorem getJobs_cache {net : Net} {id base name : Str} {ss : List Server} {jobs : List Job}
    (h : getJobs net id base name ss = .ok jobs) {j : Job} (hj : j ∈ jobs) {p : Str} (hp : j.cache = some p) :
    ∃ s ∈ ss, ∃ c, s.cache = some c ∧ p = cachePath c base id name := by
  have hnew : ∀ {c : Option Str} {u : Str} {j : Job}, Job.new net c u = .ok j → j.cache = c := by
    intro c u j h
    unfold Job.new at h
    split at h
    · cases h; rfl
    · cases h
  induction ss generalizing jobs with
  | nil => cases h; simp at hj
  | cons s ss ih =>
    unfold getJobs at h
    cases h1 : serverJobs net id base name s with
    | err m => rw [h1] at h; cases h
    | panic => rw [h1] at h; cases h
    | ok js =>
      rw [h1] at h
      cases h2 : getJobs net id base name ss with
      | err m => rw [h2] at h; cases h
      | panic => rw [h2] at h; cases h
      | ok rest =>
        rw [h2] at h
        cases h
        rcases List.mem_append.mp hj with hj | hj
        · refine ⟨s, by simp, ?_⟩
          have : j.cache = s.cache.map (cachePath · base id name) := by
            unfold serverJobs at h1
            simp only at h1
            cases e1 : Job.new net (s.cache.map (cachePath · base id name)) (jobUrl s.server name id name) with
            | err m => rw [e1] at h1; cases h1
            | panic => rw [e1] at h1; cases h1
            | ok job =>
              rw [e1] at h1
              simp only [Res.bind] at h1
              split at h1
              · cases h1
                simp only [List.mem_singleton] at hj
                rw [hj]; exact hnew e1
              · cases e2 : dropLastByte name with
                | err m => rw [e2] at h1; cases h1
                | panic => rw [e2] at h1; cases h1
                | ok short =>
                  rw [e2] at h1
                  simp only at h1
                  cases e3 : Job.new net (s.cache.map (cachePath · base id name)) (jobUrl s.server name id (short ++ ['_'])) with
                  | err m => rw [e3] at h1; cases h1
                  | panic => rw [e3] at h1; cases h1
                  | ok job2 =>
                    rw [e3] at h1
                    cases h1
                    rcases List.mem_cons.mp hj with rfl | hj
                    · exact hnew e1
                    · rw [List.mem_singleton.mp hj]; exact hnew e3
          rw [hp] at this
          obtain ⟨c, hc, e⟩ := Option.map_eq_some_iff.mp this.symm
          exact ⟨c, hc, e.symm⟩
        · obtain ⟨s', hs', hc⟩ := ih h2 hj
          exact ⟨s', by simp [hs'], hc⟩

/-- The search in the caches, in terms of where files are. -/
theorem searchInCache_none {d : Disk} {ss : List Server} {id base name : Str} :
    searchInCache d ss id base name = none ↔
      ∀ s ∈ ss, ∀ c, s.cache = some c → d (cachePath c base id name) = none := by
  unfold searchInCache
  rw [List.find?_eq_none]
  constructor
  · intro h s hs c hc
    have := h _ (List.mem_map.mpr ⟨c, List.mem_filterMap.mpr ⟨s, hs, hc⟩, rfl⟩)
    simpa [Disk.exists?] using this
  · intro h p hp
    obtain ⟨c', hc', rfl⟩ := List.mem_map.mp hp
    obtain ⟨s', hs', hcs⟩ := List.mem_filterMap.mp hc'
    unfold Disk.exists?
    rw [h s' hs' c' hcs]
    simp

theorem copyInCache_disk (net : Net) (path : Option Str) (data : Bytes) (d : Disk) :
    (copyInCache net path data d).2 = d ∨
      ∃ p b, path = some p ∧ (copyInCache net path data d).2 = d.write p b ∧ b = data.take (net.room p) ∧
        ¬ (data = [] ∨ notFound <+: data) := by
  unfold copyInCache
  split
  · exact .inl rfl
  · rename_i hd
    split
    · exact .inl rfl
    · rename_i p
      simp only
      split
      · exact .inl rfl
      · split
        · exact .inl rfl
        · refine .inr ⟨p, _, rfl, rfl, ?_, ?_⟩
          · have := (Output.dump_spec (net.room p) net.capacity [data]).1
            simpa using this
          · simpa [List.isEmpty_iff, List.isPrefixOf_iff_prefix] using hd

/-- What a search writes: nothing, or one file at a path of the searched file in one of the caches, all of which were free. -/
theorem searchFile_disk (net : Net) (name id : Str) (servers : Option (List Server)) (w : World)
    (har : ∀ js, ∀ j ∈ net.arrivals js, j ∈ js) :
    (searchFile net name id servers w).2.disk = w.disk ∨
      ∃ ss s c raw, servers = some ss ∧ s ∈ ss ∧ s.cache = some c ∧
        (∀ s ∈ ss, ∀ c, s.cache = some c → w.disk (cachePath c (Utils.getBase name) id name) = none) ∧
        (searchFile net name id servers w).2.disk = w.disk.write (cachePath c (Utils.getBase name) id name) raw := by
  unfold searchFile
  split
  · exact .inl rfl
  · split
    · exact .inl rfl
    · rename_i ss
      simp only
      cases hsc : searchInCache w.disk ss id (Utils.getBase name) name with
      | some p => exact .inl rfl
      | none =>
        simp only
        cases hj : getJobs net id (Utils.getBase name) name ss with
        | err m => exact .inl rfl
        | panic => exact .inl rfl
        | ok jobs =>
          simp only
          have key : (fetchData net jobs w).2.disk = w.disk ∨ ∃ s c raw, s ∈ ss ∧ s.cache = some c ∧
              (fetchData net jobs w).2.disk = w.disk.write (cachePath c (Utils.getBase name) id name) raw := by
            unfold fetchData
            simp only
            cases hck : checkData net jobs with
            | none => exact .inl rfl
            | some job =>
              simp only
              have hmem : job ∈ jobs := har _ _ (List.mem_of_head? hck)
              cases hg : net.get job.url with
              | none => exact .inl rfl
              | some sb =>
                obtain ⟨st, buf⟩ := sb
                simp only
                rcases copyInCache_disk net job.cache buf w.disk with h | ⟨p, b, hp, hb, _⟩
                · exact .inl h
                · obtain ⟨s, hs, c, hc, rfl⟩ := getJobs_cache hj hmem hp
                  exact .inr ⟨s, c, b, hs, hc, hb⟩
          rcases key with h | ⟨s, c, raw, hs, hc, hd⟩
          · left
            split
            · split <;> exact h
            · exact h
            · exact h
            · exact h
          · refine .inr ⟨ss, s, c, raw, rfl, hs, hc, searchInCache_none.mp hsc, ?_⟩
            split
            · split <;> exact hd
            · exact hd
            · exact hd
            · exact hd

/-- **C46**: a search never changes or removes a file that is already there. -/
theorem C46_keeps_files (net : Net) (name id : Str) (servers : Option (List Server)) (w : World)
    (har : ∀ js, ∀ j ∈ net.arrivals js, j ∈ js) {q : Str} {n : Node} (h : w.disk q = some n) :
    (searchFile net name id servers w).2.disk q = some n := by
  rcases searchFile_disk net name id servers w har with e | ⟨ss, s, c, raw, _, hs, hc, hfree, e⟩
  · rw [e]; exact h
  · rw [e]
    unfold Disk.write
    rw [if_neg]
    · exact h
    · rintro rfl
      rw [hfree s hs c hc] at h
      cases h

/-- A cabinet is searched for the same entry whatever directory its path is in. -/
theorem readCabinet_dir {cab : Cab} {buf : Bytes} {pre n : Str} (hp : DirPart pre) (hc : ProperComp n) :
    Files.readCabinet cab buf (pre ++ n) = Files.readCabinet cab buf n := by
  have h1 := fileName_dirPart hp hc
  have h2 := fileName_proper n hc
  unfold Files.readCabinet
  cases cab buf with
  | none => rfl
  | some es =>
    simp only
    have hext : extension (pre ++ n) = extension n := by unfold extension; rw [h1, h2]
    unfold Utils.getCorrectedPath
    rw [hext]
    cases he : extension n with
    | none => rfl
    | some e =>
      have hform : ∃ b, n = b ++ '.' :: e ∧ b ≠ [] ∧ '.' ∉ e := by
        unfold extension at he
        rw [h2] at he
        simp only at he
        rcases split_last_dot n with hd | ⟨b, a, rfl, ha⟩
        · rw [rsplitDot_none _ hd] at he; cases he
        · rw [rsplitDot_append b a ha] at he
          simp only at he
          split at he
          · cases he
          · rename_i hb; cases he; exact ⟨b, rfl, hb, ha⟩
      obtain ⟨b, rfl, hb, ha⟩ := hform
      have hslash : '/' ∉ b := by
        intro h; exact hc.2.1 (by simp [h])
      have hset : ∀ x : Str, x ≠ [] → '/' ∉ x →
          fileName (setExtension (pre ++ (b ++ '.' :: e)) x) = fileName (setExtension (b ++ '.' :: e) x) := by
        intro x hx hx'
        rw [setExtension_dirPart hp hb ha hc hx, setExtension_proper b e x hb ha hc hx,
          fileName_dirPart hp (proper_stem hb hslash hx hx'), fileName_proper _ (proper_stem hb hslash hx hx')]
      by_cases c1 : (str% "pd").isPrefixOf e = true
      · simp only [c1, if_true, hset (str% "pdb") (by decide) (by decide)]
      · by_cases c2 : (str% "dl").isPrefixOf e = true
        · simp only [c1, c2, if_true, if_false, Bool.false_eq_true, hset (str% "dll") (by decide) (by decide)]
        · by_cases c3 : (str% "ex").isPrefixOf e = true
          · simp only [c1, c2, c3, if_true, if_false, Bool.false_eq_true, hset (str% "exe") (by decide) (by decide)]
          · by_cases c4 : (str% "db").isPrefixOf e = true
            · simp only [c1, c2, c3, c4, if_true, if_false, Bool.false_eq_true, hset (str% "dbg") (by decide) (by decide)]
            · simp only [c1, c2, c3, c4, if_false, Bool.false_eq_true, h1, h2]

/-- The path of a file in a cache ends with the id and the name. -/
theorem cachePath_shape (c base id name : Str) (hi : ProperComp id) (hn : ProperComp name) :
    ∃ pre, DirPart pre ∧ cachePath c base id name = pre ++ id ++ '/' :: name := by
  unfold cachePath
  generalize push c base = x
  have hlast : ∀ y : Str, (y ++ id).getLast? ≠ none ∧ (y ++ id).getLast? ≠ some '/' := by
    intro y
    constructor
    · intro h
      rw [List.getLast?_eq_none_iff] at h
      exact hi.1 (List.append_eq_nil_iff.mp h).2
    · intro h
      rw [List.getLast?_append] at h
      cases hl : id.getLast? with
      | none => exact hi.1 (List.getLast?_eq_none_iff.mp hl)
      | some z =>
        rw [hl] at h
        simp only [Option.some_or, Option.some.injEq] at h
        subst h
        exact hi.2.1 (List.mem_of_getLast? hl)
  have h2 : ∀ y : Str, push (y ++ id) name = y ++ id ++ '/' :: name := by
    intro y
    unfold push
    rw [proper_head hn, if_neg (by simp), if_neg]
    rintro (h | h)
    · exact (hlast y).1 h
    · exact (hlast y).2 h
  have h1 : ∃ pre, DirPart pre ∧ push x id = pre ++ id := by
    unfold push
    rw [proper_head hi, if_neg (by simp)]
    split
    · rename_i h
      refine ⟨x, ?_, rfl⟩
      rcases h with h | h
      · exact .inl (List.getLast?_eq_none_iff.mp h)
      · exact .inr h
    · exact ⟨x ++ ['/'], .inr (by simp), by simp⟩
  obtain ⟨pre, hp, e⟩ := h1
  exact ⟨pre, hp, by rw [e, h2]⟩

/-- Paths of different files in caches are different. -/
theorem cachePath_inj {c base id name c' base' id' name' : Str} (hi : ProperComp id) (hn : ProperComp name)
    (hi' : ProperComp id') (hn' : ProperComp name') (h : cachePath c base id name = cachePath c' base' id' name') :
    id = id' ∧ name = name' := by
  obtain ⟨pre, hp, e⟩ := cachePath_shape c base id name hi hn
  obtain ⟨pre', hp', e'⟩ := cachePath_shape c' base' id' name' hi' hn'
  rw [e, e'] at h
  have hname : name = name' := by
    have h1 := fileName_dirPart (pre := pre ++ id ++ ['/']) (.inr (by simp)) hn
    have h2 := fileName_dirPart (pre := pre' ++ id' ++ ['/']) (.inr (by simp)) hn'
    rw [List.append_assoc, List.singleton_append] at h1 h2
    rw [h, h2] at h1
    exact (Option.some.inj h1).symm
  subst hname
  have h3 := List.append_cancel_right h
  have h1 := fileName_dirPart hp hi
  have h2 := fileName_dirPart hp' hi'
  rw [h3, h2] at h1
  exact ⟨(Option.some.inj h1).symm, rfl⟩

/-- Reading back a file of a cache. -/
theorem readFile_cached {cab : Cab} {d : Disk} {c base id name : Str} {raw b : Bytes} (hi : ProperComp id) (hn : ProperComp name)
    (hd : d (cachePath c base id name) = some (.file raw true)) (hr : Files.readCabinet cab raw name = .ok (some b)) :
    Files.readFile cab d (cachePath c base id name) = .ok b := by
  obtain ⟨pre, hp, e⟩ := cachePath_shape c base id name hi hn
  have := readCabinet_dir (cab := cab) (buf := raw) (pre := pre ++ id ++ ['/']) (.inr (by simp)) hn
  rw [List.append_assoc, List.singleton_append, ← e] at this
  unfold Files.readFile
  simp only [hd, this, hr]

/-- `Serves cab d ss id name b`: the file is found in the caches, with contents `b`. -/
def Serves (cab : Cab) (d : Disk) (ss : List Server) (id name : Str) (b : Bytes) : Prop :=
  ∃ c, searchInCache d ss id (Utils.getBase name) name = some (cachePath c (Utils.getBase name) id name) ∧
    ∃ raw, d (cachePath c (Utils.getBase name) id name) = some (.file raw true) ∧
      Files.readCabinet cab raw name = .ok (some b)

theorem serves_search {net : Net} {name id : Str} {ss : List Server} {w : World} {b : Bytes} (hi : ProperComp id)
    (hn : ProperComp name) (h : Serves net.cab w.disk ss id name b) :
    searchFile net name id (some ss) w = (.ok (some b), w) := by
  obtain ⟨c, h1, raw, h2, h3⟩ := h
  unfold searchFile
  rw [if_neg hn.1]
  simp only [h1, readFile_cached hi hn h2 h3, Res.map_ok]

/-- What a download leaves: the file, under a cache of the server that was asked. -/
theorem download_serves {net : Net} {name id : Str} {ss : List Server} {w : World} {b : Bytes}
    (h : (searchFile net name id (some ss) w).1 = .ok (some b))
    (hfree : ∀ s ∈ ss, ∀ c, s.cache = some c → w.disk (cachePath c (Utils.getBase name) id name) = none)
    (har : ∀ js, ∀ j ∈ net.arrivals js, j ∈ js) {jobs : List Job} {j : Job} {p : Str}
    (hjobs : getJobs net id (Utils.getBase name) name ss = .ok jobs) (hj : checkData net jobs = some j)
    (hp : j.cache = some p) (hroom : ∀ st raw, net.get j.url = some (st, raw) → raw.length ≤ net.room p) :
    Serves net.cab (searchFile net name id (some ss) w).2.disk ss id name b := by
  have hmem : j ∈ jobs := har _ _ (List.mem_of_head? hj)
  obtain ⟨s, hs, c, hc, rfl⟩ := getJobs_cache hjobs hmem hp
  have hsc := searchInCache_none.mpr hfree
  unfold searchFile at h ⊢
  split at h
  · cases h
  · rename_i hn
    rw [if_neg hn]
    simp only [hsc, hjobs] at h ⊢
    have hf : ∃ raw, net.get j.url = some raw := by
      cases hg : net.get j.url with
      | some r => exact ⟨r, rfl⟩
      | none => simp only [fetchData, hj, hg] at h; cases h
    obtain ⟨⟨st, raw⟩, hg⟩ := hf
    have hcopy : copyInCache net j.cache raw w.disk = (.ok true, w.disk.write (cachePath c (Utils.getBase name) id name) raw) := by
      rw [hp]
      cases hcp : (copyInCache net j.cache raw w.disk).1 with
      | err m => simp only [fetchData, hj, hg, hcp, Res.map_err] at h; cases h
      | panic => simp only [fetchData, hj, hg, hcp, Res.map_panic] at h; cases h
      | ok v =>
        cases v with
        | false => simp [fetchData, hj, hg, hcp] at h
        | true =>
          rw [hp] at hcp
          unfold copyInCache at hcp ⊢
          split at hcp
          · cases hcp
          · rename_i hd
            rw [if_neg hd]
            simp only at hcp ⊢
            split at hcp
            · cases hcp
            · rename_i h1
              rw [if_neg h1]
              split at hcp
              · cases hcp
              · rename_i h2
                rw [if_neg h2, Output.dump_fits (by simpa using hroom st raw hg)]
                simp
    have hfetch : (fetchData net jobs w).1 = .ok (some raw) ∧
        (fetchData net jobs w).2.disk = w.disk.write (cachePath c (Utils.getBase name) id name) raw := by
      simp [fetchData, hj, hg, hcopy]
    rw [hfetch.1] at h ⊢
    simp only at h ⊢
    cases hr : Files.readCabinet net.cab raw name with
    | err m => rw [hr] at h; cases h
    | panic => rw [hr] at h; cases h
    | ok o =>
      cases o with
      | none => rw [hr] at h; cases h
      | some b' =>
        rw [hr] at h
        cases h
        simp only [hfetch.2]
        -- the first cache having the file has it at the same path
        have hfind : ∃ c', searchInCache (w.disk.write (cachePath c (Utils.getBase name) id name) raw) ss id (Utils.getBase name) name =
            some (cachePath c' (Utils.getBase name) id name) ∧
            cachePath c' (Utils.getBase name) id name = cachePath c (Utils.getBase name) id name := by
          cases hx : searchInCache (w.disk.write (cachePath c (Utils.getBase name) id name) raw) ss id (Utils.getBase name) name with
          | none =>
            have := searchInCache_none.mp hx s hs c hc
            simp [Disk.write] at this
          | some q =>
            have hq := hx
            unfold searchInCache at hq
            have hmemq := List.mem_of_find?_eq_some hq
            have hexq := List.find?_some hq
            obtain ⟨c', hc', rfl⟩ := List.mem_map.mp hmemq
            obtain ⟨s', hs', hcs'⟩ := List.mem_filterMap.mp hc'
            refine ⟨c', rfl, ?_⟩
            apply Decidable.byContradiction
            intro hne
            simp only [Disk.exists?, Disk.write, if_neg hne, hfree s' hs' c' hcs'] at hexq
            cases hexq
        obtain ⟨c', hc1, hc2⟩ := hfind
        refine ⟨c', hc1, raw, ?_, hr⟩
        rw [hc2]
        simp [Disk.write]

/-- Later searches: of the same file with the same servers, or of other files. -/
inductive Later (cab : Cab) (ss : List Server) (id name : Str) : World → World → Prop where
  | refl (w : World) : Later cab ss id name w w
  | same {w w' : World} (net : Net) : net.cab = cab → Later cab ss id name w w' →
      Later cab ss id name w (searchFile net name id (some ss) w').2
  | other {w w' : World} (net : Net) (id' name' : Str) (servers : Option (List Server)) :
      (∀ js, ∀ j ∈ net.arrivals js, j ∈ js) → ProperComp id' → ProperComp name' → (id', name') ≠ (id, name) →
      Later cab ss id name w w' → Later cab ss id name w (searchFile net name' id' servers w').2

theorem serves_later {cab : Cab} {ss : List Server} {id name : Str} {b : Bytes} (hi : ProperComp id) (hn : ProperComp name)
    {w w' : World} (hl : Later cab ss id name w w') (h : Serves cab w.disk ss id name b) : Serves cab w'.disk ss id name b := by
  induction hl with
  | refl => exact h
  | same net hcab _ ih =>
    rw [serves_search hi hn (hcab ▸ ih)]
    exact ih
  | @other w2 net id' name' servers har hi' hn' hne _ ih =>
    have hw := ih
    rcases searchFile_disk net name' id' servers w2 har with e | ⟨ss', s, c, raw, _, hs, hc, hfree, e⟩
    · rw [e]; exact hw
    · rw [e]
      -- the written path is not a path of our file
      have hdiff : ∀ c'', cachePath c'' (Utils.getBase name) id name ≠ cachePath c (Utils.getBase name') id' name' := by
        intro c'' heq
        obtain ⟨h1, h2⟩ := cachePath_inj hi hn hi' hn' heq
        exact hne (by rw [h1, h2])
      obtain ⟨c1, h1, raw1, h2, h3⟩ := hw
      refine ⟨c1, ?_, raw1, ?_, h3⟩
      · rw [← h1]
        unfold searchInCache
        generalize ss.filterMap (·.cache) = cs
        induction cs with
        | nil => rfl
        | cons x cs ihc =>
          simp only [List.map_cons, List.find?_cons]
          have : Disk.exists? (w2.disk.write (cachePath c (Utils.getBase name') id' name') raw) (cachePath x (Utils.getBase name) id name) =
              Disk.exists? w2.disk (cachePath x (Utils.getBase name) id name) := by
            simp only [Disk.exists?, Disk.write, if_neg (hdiff x)]
          rw [this, ihc]
      · simp only [Disk.write, if_neg (hdiff c1)]
        exact h2

/-- For C46: a file downloaded from a server with a cache (which had room for it) is found again, with the same contents and
without any request, after any number of searches of it and of other files. -/
theorem search_served_back {net : Net} {name id : Str} {ss : List Server} {w w' : World} {b : Bytes} (hi : ProperComp id)
    (hn : ProperComp name) (h : (searchFile net name id (some ss) w).1 = .ok (some b))
    (hfree : ∀ s ∈ ss, ∀ c, s.cache = some c → w.disk (cachePath c (Utils.getBase name) id name) = none)
    (har : ∀ js, ∀ j ∈ net.arrivals js, j ∈ js) {jobs : List Job} {j : Job} {p : Str}
    (hjobs : getJobs net id (Utils.getBase name) name ss = .ok jobs) (hj : checkData net jobs = some j)
    (hp : j.cache = some p) (hroom : ∀ st raw, net.get j.url = some (st, raw) → raw.length ≤ net.room p)
    (hl : Later net.cab ss id name (searchFile net name id (some ss) w).2 w') (net' : Net) (hcab : net'.cab = net.cab) :
    searchFile net' name id (some ss) w' = (.ok (some b), w') := by
  have h1 := download_serves h hfree har hjobs hj hp hroom
  exact serves_search hi hn (hcab ▸ serves_later hi hn hl h1)

/-! ### Examples and what goes wrong -/

/-- One server with a cache. -/
def exServers : List Server := [⟨some (str% "/c"), str% "http://s"⟩]

/-- A server that has the file as `m.pd_`; the first job to answer wins. -/
def exNet (room : Nat) (answer : Nat × Bytes) (cab : Cab) : Net where
  validUrl := fun _ => true
  arrivals := fun js => js.filter (fun j => j.url.getLast? = some '_')
  get := fun u => if u = str% "http://s/m.pdb/ID/m.pd_" then some answer else none
  mkdirs := fun _ => true
  create := fun _ => true
  room := fun _ => room
  capacity := 8192
  cab := cab

/-- The network is down. -/
def exDown (cab : Cab) : Net := { exNet 1000 (200, []) cab with arrivals := fun _ => [] }

def noWorld : World := ⟨fun _ => none, []⟩

/-- What a search gives when the file is there, and then again without a network; with the number of requests made. -/
def twice (room : Nat) (answer : Nat × Bytes) (cab : Cab) : (Res (Option Bytes) × Nat) × (Res (Option Bytes) × Nat) :=
  let r := searchFile (exNet room answer cab) (str% "m.pdb") (str% "ID") (some exServers) noWorld
  let r' := searchFile (exDown cab) (str% "m.pdb") (str% "ID") (some exServers) r.2
  ((r.1, r.2.log.length), (r'.1, r'.2.log.length))

/-- A cabinet is a byte 77 followed by the contents of `m.pdb`. -/
def exCab : Cab := fun b =>
  match b with
  | 77 :: r => some [(str% "m.pdb", some r)]
  | 78 :: _ => some []
  | _ => none

/-- Downloaded (two HEAD requests, one GET), decompressed, and then served from the cache. -/
example : twice 1000 (200, [77, 1, 2, 3]) exCab = ((.ok (some [1, 2, 3]), 3), (.ok (some [1, 2, 3]), 3)) := by decide
/-- Refused. -/
example : twice 1000 (200, Utf8.encode (str% "Symbol Not Found: x")) exCab = ((.ok none, 3), (.ok none, 5)) := by decide

/-- A disk without room: the download succeeds, but the failure to write the last buffer is ignored; an empty file stays in the
cache and is what later searches return. -/
theorem C46_flush_witness : twice 0 (200, [1, 2, 3]) exCab = ((.ok (some [1, 2, 3]), 3), (.ok (some []), 3)) := by decide

/-- **C46, a full disk.** When the disk has no room for a download, what fits of it stays in the cache; the program crashes if the download is as
large as the buffer of the writer or larger, and otherwise does not notice. -/
theorem C46_full_disk (net : Net) (p : Str) (data : Bytes) (d : Disk) (hne : data ≠ []) (hnf : ¬ notFound <+: data) (hdir : dirOk net p d = true)
    (hc : net.create p = true) (hfull : net.room p < data.length) :
    copyInCache net (some p) data d = (if net.capacity ≤ data.length then .panic else .ok true, d.write p (data.take (net.room p))) := by
  have h1 : (data.isEmpty || notFound.isPrefixOf data) = false := by
    cases data with
    | nil => exact absurd rfl hne
    | cons c cs =>
      cases hp : notFound.isPrefixOf (c :: cs) with
      | true => exact absurd (List.isPrefixOf_iff_prefix.mp hp) hnf
      | false => rfl
  have hd := (Output.dump_spec (net.room p) net.capacity [data]).1
  simp only [List.flatten_cons, List.flatten_nil, List.append_nil] at hd
  have hr : (Output.dump (net.room p) net.capacity [data]).1 = !decide (net.capacity ≤ data.length) := by
    simp only [Output.dump, Output.writeChunks, Output.writeAll, List.length_nil, Nat.sub_zero]
    by_cases hcap : net.capacity ≤ data.length
    · have hfl : ∀ w : Output.BufWriter, w = ⟨[], []⟩ → Output.flushBuf (net.room p) w = (true, ⟨[], []⟩) := by
        rintro w rfl; simp [Output.flushBuf, Output.innerWrite]
      have hlt : ¬ data.length < net.capacity := Nat.not_lt.mpr hcap
      simp only [hlt, if_false]
      rw [hfl _ rfl]
      have : (if data.length > net.capacity then (true, (⟨[], []⟩ : Output.BufWriter)) else (true, ⟨[], []⟩)) = (true, ⟨[], []⟩) := by split <;> rfl
      rw [this]
      simp [Output.innerWrite, hcap, Nat.not_le.mpr hfull]
    · simp [Nat.not_le.mp hcap, hcap]
  unfold copyInCache
  rw [h1]
  simp only [Bool.false_eq_true, if_false, hdir, hc, Bool.not_true, hd, hr]
  by_cases hcap : net.capacity ≤ data.length <;> simp [hcap]

/-- With a buffer of two bytes and room for one. -/
example : let net := { exNet 1 (200, [1]) exCab with capacity := 2 }
    (copyInCache net (some (str% "/c/m.pdb/ID/m.pdb")) [1, 2] noWorld.disk).1 = .panic ∧
    ({ net with room := fun _ => 0 }.room (str% "/c") < [1].length ∧
      (copyInCache { net with room := fun _ => 0 } (some (str% "/c/m.pdb/ID/m.pdb")) [1] noWorld.disk).1 = .ok true) := by decide

/-- The status of the answer to the GET is not looked at: an error page is cached and returned. -/
theorem C46_status_witness : twice 1000 (500, [60, 104]) exCab = ((.ok (some [60, 104]), 3), (.ok (some [60, 104]), 3)) := by
  decide

/-- A download is cached before it is known to be usable: a cabinet without the wanted file makes this run panic, and every
later one too, without asking the server again. -/
theorem C46_poison_witness : twice 1000 (200, [78]) exCab = ((.panic, 3), (.panic, 3)) := by decide

/-! ## C47 -/

/-- **C47 is false**: stopped while storing a download, the program leaves a truncated file that later searches return. -/
theorem C47_truncated_witness : ∃ d : Disk, StoppedDisk noWorld.disk (str% "/c/m.pdb/ID/m.pdb") [1, 2, 3] d ∧
    (searchFile (exNet 1000 (200, [1, 2, 3]) exCab) (str% "m.pdb") (str% "ID") (some exServers) ⟨d, []⟩).1 = .ok (some [1]) ∧
    (searchFile (exNet 1000 (200, [1, 2, 3]) exCab) (str% "m.pdb") (str% "ID") (some exServers) noWorld).1 =
      .ok (some [1, 2, 3]) :=
  ⟨_, .during 1 (by decide), by decide, by decide⟩

/-- What holds of C47: a stopped run changes no other file, and if it was stopped before creating the file or after all bytes
were written, later searches behave as if it had not run, or as if it had finished.  Missing: the moments between. -/
theorem C47_stopped_partial {d d' : Disk} {p : Str} {data : Bytes} (h : StoppedDisk d p data d') :
    (∀ q, q ≠ p → d' q = d q) ∧ (d' = d ∨ ∃ k, k ≤ data.length ∧ d' p = some (.file (data.take k) true)) ∧
      (d' p = some (.file data true) → d' = d ∨ d' = d.write p data) := by
  cases h with
  | before => exact ⟨fun _ _ => rfl, .inl rfl, fun _ => .inl rfl⟩
  | during k hk =>
    refine ⟨fun q hq => by simp [Disk.write, hq], .inr ⟨k, hk, by simp [Disk.write]⟩, fun h => .inr ?_⟩
    simp only [Disk.write, if_true, Option.some.injEq, Node.file.injEq, and_true] at h
    rw [h]

/-! ## C59 -/

/-- **C59 is false**: the last byte of the name is cut off to look for a compressed file, which panics when the name ends with a
character of several bytes. -/
theorem C59_multibyte_witness :
    (searchFile (exNet 1000 (200, [1]) exCab) (str% "mé") (str% "ID") (some exServers) noWorld).1 = .panic := by decide

theorem getJobs_ok {net : Net} {id base name : Str} (hurl : ∀ u, net.validUrl u = true) {c : Char}
    (hl : name.getLast? = some c) (hc : c.toNat < 128) (ss : List Server) : ∃ jobs, getJobs net id base name ss = .ok jobs := by
  induction ss with
  | nil => exact ⟨[], rfl⟩
  | cons s ss ih =>
    obtain ⟨rest, hr⟩ := ih
    have : ∃ js, serverJobs net id base name s = .ok js := by
      unfold serverJobs Job.new dropLastByte
      simp only [hurl, if_true, hl, hc, Res.bind]
      split
      · exact ⟨_, rfl⟩
      · exact ⟨_, rfl⟩
    obtain ⟨js, hjs⟩ := this
    exact ⟨js ++ rest, by rw [getJobs, hjs, hr]; rfl⟩

/-- For C59 (`Props/Search`). -/
theorem search_no_panic (net : Net) (name id : Str) (servers : Option (List Server)) (w : World) {c : Char}
    (hurl : ∀ u, net.validUrl u = true) (hl : name.getLast? = some c) (hc : c.toNat < 128)
    (hread : ∀ ss p, servers = some ss → searchInCache w.disk ss id (Utils.getBase name) name = some p →
      ∃ b, Files.readFile net.cab w.disk p = .ok b)
    (hans : ∀ u st raw, net.get u = some (st, raw) → ∃ b, Files.readCabinet net.cab raw name = .ok (some b))
    (hm : ∀ p, net.mkdirs p = true) (hcr : ∀ p, net.create p = true)
    (hroom : ∀ u st raw p, net.get u = some (st, raw) → raw.length ≤ net.room p) :
    ∃ r, (searchFile net name id servers w).1 = .ok r := by
  unfold searchFile
  split
  · exact ⟨_, rfl⟩
  · split
    · exact ⟨_, rfl⟩
    · rename_i ss
      simp only
      cases hsc : searchInCache w.disk ss id (Utils.getBase name) name with
      | some p =>
        obtain ⟨b, hb⟩ := hread ss p rfl hsc
        exact ⟨some b, by simp [hb]⟩
      | none =>
        obtain ⟨jobs, hj⟩ := getJobs_ok (id := id) (base := Utils.getBase name) hurl hl hc ss
        simp only [hj]
        have hcopy : ∀ u st raw path, net.get u = some (st, raw) → ∃ v, (copyInCache net path raw w.disk).1 = .ok v := by
          intro u st raw path hg
          unfold copyInCache
          split
          · exact ⟨_, rfl⟩
          · split
            · exact ⟨_, rfl⟩
            · rename_i p
              have hd : dirOk net p w.disk = true := by
                unfold dirOk
                split <;> simp [hm]
              simp only [hd, hcr, Bool.not_true, Bool.false_eq_true, if_false]
              rw [Output.dump_fits (by simpa using hroom u st raw p hg)]
              exact ⟨true, rfl⟩
        have hfetch : (fetchData net jobs w).1 = .ok none ∨
            ∃ u st raw, net.get u = some (st, raw) ∧ (fetchData net jobs w).1 = .ok (some raw) := by
          unfold fetchData
          simp only
          split
          · exact .inl rfl
          · rename_i job _
            split
            · exact .inl rfl
            · rename_i st raw hg
              obtain ⟨v, hv⟩ := hcopy _ _ _ job.cache hg
              simp only [hv, Res.map_ok]
              cases v with
              | true => exact .inr ⟨_, _, _, hg, rfl⟩
              | false => exact .inl rfl
        rcases hfetch with h | ⟨u, st, raw, hg, h⟩
        · rw [h]; exact ⟨none, rfl⟩
        · obtain ⟨b, hb⟩ := hans u st raw hg
          rw [h]
          simp only [hb]
          exact ⟨_, rfl⟩

end Cache
end DumpSyms
