import Verif.Props.WinUtils
import Verif.Spec.Inputs
/-!
# Running again: what a run left on the disk gives the same answers (for C93)
-/
namespace DumpSyms

/-- Everything on the first disk is on the second. -/
def Disk.Within (d d' : Disk) : Prop := ∀ p n, d p = some n → d' p = some n

namespace Files

theorem readFile_within {cab : Cab} {d d' : Disk} (h : d.Within d') {q : Str} {b : Bytes} (hr : readFile cab d q = .ok b) :
    readFile cab d' q = .ok b := by
  unfold readFile at hr ⊢
  cases hq : d q with
  | none => rw [hq] at hr; cases hr
  | some n =>
    rw [hq] at hr
    rw [h q n hq]
    have key : ∀ p, (match d p with
        | some (.file b true) => match readCabinet cab b p with
          | .ok (some r) => Res.ok r
          | _ => .panic
        | _ => .panic) = Res.ok b → (match d' p with
        | some (.file b true) => match readCabinet cab b p with
          | .ok (some r) => Res.ok r
          | _ => .panic
        | _ => .panic) = Res.ok b := by
      intro p hp
      cases hd : d p with
      | none => rw [hd] at hp; cases hp
      | some m => rw [h p m hd, ← hd]; exact hp
    cases n with
    | file x y => exact key q hr
    | dir es =>
      simp only at hr ⊢
      unfold macBundle at hr ⊢
      simp only at hr ⊢
      cases hw : d (Path.push q (str% "Contents/Resources/DWARF")) with
      | none => rw [hw] at hr; cases hr
      | some m =>
        rw [hw] at hr
        rw [h _ m hw]
        cases m with
        | file x y => cases hr
        | dir es' =>
          match es', hr with
          | [e], hr => exact key _ hr
          | [], hr => cases hr
          | _ :: _ :: _, hr => cases hr

theorem readFile_no_err (cab : Cab) (d : Disk) (q m : Str) : readFile cab d q ≠ .err m := by
  unfold readFile
  simp only
  split
  · split
    · split <;> simp
    · simp
  · simp

end Files

namespace Cache
open Path

theorem searchInCache_congr {d d' : Disk} {ss : List Server} {id base name : Str}
    (h : ∀ c, d' (cachePath c base id name) = d (cachePath c base id name)) :
    searchInCache d' ss id base name = searchInCache d ss id base name := by
  unfold searchInCache
  generalize ss.filterMap (·.cache) = cs
  induction cs with
  | nil => rfl
  | cons x cs ih =>
    simp only [List.map_cons, List.find?_cons]
    have : Disk.exists? d' (cachePath x base id name) = Disk.exists? d (cachePath x base id name) := by
      simp only [Disk.exists?, h x]
    rw [this, ih]

theorem write_ne {d : Disk} {p : Str} {b : Bytes} (h : d p = none) : d.write p b ≠ d := by
  intro e
  have := congrFun e p
  simp [Disk.write, h] at this

/-- A fetch that gives something and changes nothing does so whatever is on the disk. -/
theorem fetch_const {net : Net} {jobs : List Job} {w : World} {x : Option Bytes} (h : (fetchData net jobs w).1 = .ok x)
    (hd : (fetchData net jobs w).2.disk = w.disk) (har : ∀ js, ∀ j ∈ net.arrivals js, j ∈ js)
    (hfree : ∀ j ∈ jobs, ∀ p, j.cache = some p → w.disk p = none) (w' : World) :
    (fetchData net jobs w').1 = .ok x ∧ (fetchData net jobs w').2.disk = w'.disk := by
  unfold fetchData at h hd ⊢
  simp only at h hd ⊢
  cases hck : checkData net jobs with
  | none => rw [hck] at h; exact ⟨h, rfl⟩
  | some job =>
    rw [hck] at h hd
    simp only at h hd ⊢
    have hmem : job ∈ jobs := har _ _ (List.mem_of_head? hck)
    cases hg : net.get job.url with
    | none => rw [hg] at h; exact ⟨h, rfl⟩
    | some sb =>
      obtain ⟨st, buf⟩ := sb
      rw [hg] at h hd
      simp only at h hd ⊢
      have key : ∃ v, (copyInCache net job.cache buf w.disk).1 = .ok v ∧ ∀ d, copyInCache net job.cache buf d = (.ok v, d) := by
        unfold copyInCache at h hd ⊢
        split
        · exact ⟨false, rfl, fun d => rfl⟩
        · rename_i hb
          rw [if_neg hb] at h hd
          cases hc : job.cache with
          | none => exact ⟨true, rfl, fun d => rfl⟩
          | some p =>
            exfalso
            rw [hc] at h hd
            simp only at h hd
            split at h
            · cases h
            · rename_i h1
              rw [if_neg h1] at hd
              split at h
              · cases h
              · rename_i h2
                rw [if_neg h2] at hd
                exact write_ne (hfree job hmem p hc) hd
      obtain ⟨v, hv, hall⟩ := key
      rw [hv] at h
      rw [hall w'.disk]
      exact ⟨h, rfl⟩

/-- What a search that stored something found. -/
theorem stored {net : Net} {name id : Str} {servers : Option (List Server)} {w : World} {x : Option Bytes}
    (h : (searchFile net name id servers w).1 = .ok x) (hd : (searchFile net name id servers w).2.disk ≠ w.disk) :
    ∃ ss b jobs j p, servers = some ss ∧ x = some b ∧ searchInCache w.disk ss id (Utils.getBase name) name = none ∧
      getJobs net id (Utils.getBase name) name ss = .ok jobs ∧ checkData net jobs = some j ∧ j.cache = some p := by
  unfold searchFile at h hd
  split at h
  · rename_i hn; rw [if_pos hn] at hd; exact absurd rfl hd
  · rename_i hn
    rw [if_neg hn] at hd
    cases servers with
    | none => exact absurd rfl hd
    | some ss =>
      simp only at h hd
      cases hsc : searchInCache w.disk ss id (Utils.getBase name) name with
      | some p => rw [hsc] at hd; exact absurd rfl hd
      | none =>
        rw [hsc] at h hd
        simp only at h hd
        cases hj : getJobs net id (Utils.getBase name) name ss with
        | err m => rw [hj] at hd; exact absurd rfl hd
        | panic => rw [hj] at hd; exact absurd rfl hd
        | ok jobs =>
          rw [hj] at h hd
          simp only at h hd
          have hd' : (fetchData net jobs w).2.disk ≠ w.disk := by
            intro e
            apply hd
            split
            · split <;> exact e
            · exact e
            · exact e
            · exact e
          unfold fetchData at hd'
          simp only at hd'
          cases hck : checkData net jobs with
          | none => rw [hck] at hd'; exact absurd rfl hd'
          | some job =>
            rw [hck] at hd'
            simp only at hd'
            cases hg : net.get job.url with
            | none => rw [hg] at hd'; exact absurd rfl hd'
            | some sb =>
              obtain ⟨st, buf⟩ := sb
              rw [hg] at hd'
              simp only at hd'
              rcases copyInCache_disk net job.cache buf w.disk with e | ⟨p, b, hp, _, _, hb⟩
              · exact absurd e hd'
              · have hx : ∃ b, x = some b := by
                  cases hc : (copyInCache net job.cache buf w.disk).1 with
                  | err m => simp only [fetchData, hck, hg, hc, Res.map_err] at h; cases h
                  | panic => simp only [fetchData, hck, hg, hc, Res.map_panic] at h; cases h
                  | ok v =>
                    cases v with
                    | false =>
                      exfalso
                      unfold copyInCache at hc
                      rw [if_neg (by simpa [List.isEmpty_iff, List.isPrefixOf_iff_prefix] using hb), hp] at hc
                      simp only at hc
                      split at hc
                      · cases hc
                      · split at hc
                        · cases hc
                        · split at hc <;> cases hc
                    | true =>
                      simp only [fetchData, hck, hg, hc, Res.map_ok, if_true] at h
                      split at h
                      · cases h; exact ⟨_, rfl⟩
                      · cases h
                obtain ⟨b', rfl⟩ := hx
                exact ⟨ss, b', jobs, job, p, rfl, rfl, hsc, hj, hck, hp⟩

theorem serves_within {cab : Cab} {d d' : Disk} {ss : List Server} {id name : Str} {b : Bytes}
    (hpl : ∀ c, d' (cachePath c (Utils.getBase name) id name) = d (cachePath c (Utils.getBase name) id name))
    (h : Serves cab d ss id name b) : Serves cab d' ss id name b := by
  obtain ⟨c, h1, raw, h2, h3⟩ := h
  exact ⟨c, by rw [searchInCache_congr hpl, h1], raw, by rw [hpl, h2], h3⟩

/-- What a search found is found again on a disk with more files, when the places of the searched file are as the search left them. -/
theorem search_again {net : Net} {name id : Str} {servers : Option (List Server)} {w : World} {x : Option Bytes}
    (hi : ProperComp id) (hn : ProperComp name) (har : ∀ js, ∀ j ∈ net.arrivals js, j ∈ js)
    (hroom : ∀ u st raw p, net.get u = some (st, raw) → raw.length ≤ net.room p)
    (h : (searchFile net name id servers w).1 = .ok x) {w' : World} (hw : (searchFile net name id servers w).2.disk.Within w'.disk)
    (hpl : ∀ c, w'.disk (cachePath c (Utils.getBase name) id name) =
      (searchFile net name id servers w).2.disk (cachePath c (Utils.getBase name) id name)) :
    (searchFile net name id servers w').1 = .ok x ∧ (searchFile net name id servers w').2.disk = w'.disk ∧
      ((searchFile net name id servers w).2.disk ≠ w.disk → ∀ net' : Net, net'.cab = net.cab →
        searchFile net' name id servers w' = (.ok x, w')) := by
  by_cases hd : (searchFile net name id servers w).2.disk = w.disk
  · refine ⟨?_, ?_, fun hne => absurd hd hne⟩ <;> rw [hd] at hw hpl
    · unfold searchFile at h ⊢
      rw [if_neg hn.1] at h ⊢
      cases servers with
      | none => exact h
      | some ss =>
        simp only at h ⊢
        rw [searchInCache_congr hpl]
        cases hsc : searchInCache w.disk ss id (Utils.getBase name) name with
        | some p =>
          rw [hsc] at h
          simp only at h ⊢
          cases hr : Files.readFile net.cab w.disk p with
          | err m => rw [hr] at h; cases h
          | panic => rw [hr] at h; cases h
          | ok b => rw [hr] at h; rw [Files.readFile_within hw hr]; exact h
        | none =>
          rw [hsc] at h
          simp only at h ⊢
          cases hj : getJobs net id (Utils.getBase name) name ss with
          | err m => rw [hj] at h; cases h
          | panic => rw [hj] at h; cases h
          | ok jobs =>
            rw [hj] at h
            simp only at h ⊢
            cases hf : (fetchData net jobs w).1 with
            | err m => rw [hf] at h; cases h
            | panic => rw [hf] at h; cases h
            | ok y =>
              have hfd : (fetchData net jobs w).2.disk = w.disk := by
                have := hd
                unfold searchFile at this
                rw [if_neg hn.1] at this
                simp only [hsc, hj, hf] at this
                cases y with
                | none => exact this
                | some buf =>
                  simp only at this
                  split at this <;> exact this
              have hfree := searchInCache_none.mp hsc
              have := fetch_const hf hfd har (by
                intro j hjm p hp
                obtain ⟨s, hs, c, hc, rfl⟩ := getJobs_cache hj hjm hp
                exact hfree s hs c hc) w'
              rw [this.1]
              rw [hf] at h
              cases y with
              | none => exact h
              | some buf =>
                simp only at h ⊢
                split at h
                · exact h
                · cases h
    · unfold searchFile at h ⊢
      rw [if_neg hn.1] at h ⊢
      cases servers with
      | none => rfl
      | some ss =>
        simp only at h ⊢
        rw [searchInCache_congr hpl]
        cases hsc : searchInCache w.disk ss id (Utils.getBase name) name with
        | some p => rfl
        | none =>
          rw [hsc] at h
          simp only at h ⊢
          cases hj : getJobs net id (Utils.getBase name) name ss with
          | err m => rfl
          | panic => rfl
          | ok jobs =>
            rw [hj] at h
            simp only at h ⊢
            cases hf : (fetchData net jobs w).1 with
            | err m => rw [hf] at h; cases h
            | panic => rw [hf] at h; cases h
            | ok y =>
              have hfd : (fetchData net jobs w).2.disk = w.disk := by
                have := hd
                unfold searchFile at this
                rw [if_neg hn.1] at this
                simp only [hsc, hj, hf] at this
                cases y with
                | none => exact this
                | some buf =>
                  simp only at this
                  split at this <;> exact this
              have hfree := searchInCache_none.mp hsc
              have := fetch_const hf hfd har (by
                intro j hjm p hp
                obtain ⟨s, hs, c, hc, rfl⟩ := getJobs_cache hj hjm hp
                exact hfree s hs c hc) w'
              rw [this.1]
              cases y with
              | none => exact this.2
              | some buf =>
                simp only
                split <;> exact this.2
  · obtain ⟨ss, b, jobs, j, p, rfl, rfl, hsc, hj, hck, hp⟩ := stored h hd
    have hs := download_serves h (searchInCache_none.mp hsc) har hj hck hp (fun st raw hg => hroom _ st raw p hg)
    have hs' := serves_within hpl hs
    have all : ∀ net' : Net, net'.cab = net.cab → searchFile net' name id (some ss) w' = (.ok (some b), w') :=
      fun net' hcab => serves_search hi hn (hcab ▸ hs')
    rw [all net rfl]
    exact ⟨rfl, rfl, fun _ => all⟩

theorem search_within (net : Net) (name id : Str) (servers : Option (List Server)) (w : World)
    (har : ∀ js, ∀ j ∈ net.arrivals js, j ∈ js) : w.disk.Within (searchFile net name id servers w).2.disk := by
  intro p n hp
  rcases searchFile_disk net name id servers w har with e | ⟨ss, s, c, raw, _, hs, hc, hfree, e⟩
  · rw [e]; exact hp
  · rw [e]
    unfold Disk.write
    split
    · rename_i hq
      rw [hq, hfree s hs c hc] at hp
      cases hp
    · exact hp

theorem search_no_err (net : Net) (name id : Str) (servers : Option (List Server)) (w : World) (m : Str) :
    (searchFile net name id servers w).1 ≠ .err m := by
  unfold searchFile
  split
  · simp
  · cases servers with
    | none => simp
    | some ss =>
      simp only
      cases hsc : searchInCache w.disk ss id (Utils.getBase name) name with
      | some p =>
        simp only
        cases hr : Files.readFile net.cab w.disk p with
        | err m => exact absurd hr (Files.readFile_no_err _ _ _ _)
        | panic => simp
        | ok b => simp
      | none =>
        simp only
        cases hj : getJobs net id (Utils.getBase name) name ss with
        | err m => exact absurd hj (getJobs_no_err ss m)
        | panic => simp
        | ok jobs =>
          simp only
          have hf : ∀ m, (fetchData net jobs w).1 ≠ .err m := by
            intro m
            unfold fetchData
            simp only
            cases checkData net jobs with
            | none => simp
            | some job =>
              simp only
              cases net.get job.url with
              | none => simp
              | some sb =>
                simp only
                have : ∀ m, (copyInCache net job.cache sb.2 w.disk).1 ≠ .err m := by
                  intro m
                  unfold copyInCache
                  split
                  · simp
                  · cases job.cache with
                    | none => simp
                    | some p =>
                      simp only
                      split
                      · simp
                      · split
                        · simp
                        · simp only; split <;> simp
                cases hc : (copyInCache net job.cache sb.2 w.disk).1 with
                | err m' => exact absurd hc (this m')
                | panic => simp
                | ok v => simp
          cases hfd : (fetchData net jobs w).1 with
          | err m' => exact absurd hfd (hf m')
          | panic => simp
          | ok y =>
            cases y with
            | none => simp
            | some buf => simp only; split <;> simp

/-- The servers found on a disk are found on one with more files. -/
theorem getSymServers_within {home : Option Str} {d d' : Disk} (h : d.Within d') {o : Option Str} {ss : List Server}
    (hs : getSymServers home d o = .ok (some ss)) : getSymServers home d' o = .ok (some ss) := by
  cases o with
  | some s => exact hs
  | none =>
    unfold getSymServers readConfig at hs ⊢
    cases home with
    | none => exact hs
    | some hm =>
      simp only at hs ⊢
      cases hq : d (push (push hm (str% ".dump_syms")) (str% "config")) with
      | none => rw [hq] at hs; cases hs
      | some n => rw [h _ n hq, ← hq]; exact hs

end Cache

namespace WinUtils
open Path

theorem isFile_write {d : Disk} {p q : Str} {b : Bytes} : (d.write p b).isFile q = (decide (q = p) || d.isFile q) := by
  unfold Disk.isFile Disk.write
  by_cases h : q = p <;> simp [h]

/-- A PDB that was not found beside the PE: after a file has been written somewhere, it is not found either, or it is that file. -/
theorem find_again {cab : Cab} {d : Disk} {cwd path rec name p : Str} {raw b : Bytes}
    (h : osSpecificTryToFindPdb cab d cwd path rec = .ok (none, name)) (hn : name ≠ [])
    (hr : Files.readFile cab (d.write p raw) p = .ok b) :
    osSpecificTryToFindPdb cab (d.write p raw) cwd path rec = .ok (none, name) ∨
      osSpecificTryToFindPdb cab (d.write p raw) cwd path rec = .ok (some b, name) := by
  have no : ∀ (q n : Str), (Files.readFile cab d q).map (fun b => (some b, n)) ≠ Res.ok (none, name) := by
    intro q n
    cases Files.readFile cab d q <;> simp
  unfold osSpecificTryToFindPdb at h ⊢
  simp only at h ⊢
  cases hf : fileName (rec.map fun c => if c = '\\' then '/' else c) with
  | none => rw [hf] at h; cases h; exact absurd rfl hn
  | some n =>
    rw [hf] at h
    simp only at h ⊢
    rw [isFile_write]
    split at h
    · exact absurd h (no _ _)
    · rename_i h1
      rw [Bool.not_eq_true] at h1
      rw [h1, Bool.or_false]
      unfold tryToFindPdb at h ⊢
      simp only at h ⊢
      simp only [isFile_write]
      have no' : ∀ q, (((Files.readFile cab d q).map some).map fun b => (b, n)) ≠ Res.ok (none, name) := by
        intro q
        cases Files.readFile cab d q <;> simp
      split at h
      · exact absurd h (no' _)
      · rename_i h2
        rw [Bool.not_eq_true] at h2
        rw [h2, Bool.or_false]
        split at h
        · exact absurd h (no' _)
        · rename_i h3
          rw [Bool.not_eq_true] at h3
          rw [h3, Bool.or_false]
          split at h
          · exact absurd h (no' _)
          · rename_i h4
            rw [Bool.not_eq_true] at h4
            rw [h4, Bool.or_false]
            simp only [Res.map_ok, Res.ok.injEq, Prod.mk.injEq, true_and] at h
            subst h
            split
            · rename_i e; rw [of_decide_eq_true e, hr]; exact .inr rfl
            · split
              · rename_i e; rw [of_decide_eq_true e, hr]; exact .inr rfl
              · split
                · rename_i e; rw [of_decide_eq_true e, hr]; exact .inr rfl
                · split
                  · rename_i e; rw [of_decide_eq_true e, hr]; exact .inr rfl
                  · exact .inl rfl

theorem osSpecific_no_err (cab : Cab) (d : Disk) (cwd path rec m : Str) : osSpecificTryToFindPdb cab d cwd path rec ≠ .err m := by
  have no : ∀ {α : Type} (q : Str) (f : Bytes → α), (Files.readFile cab d q).map f ≠ Res.err m := by
    intro α q f
    cases hr : Files.readFile cab d q with
    | ok b => simp
    | err m' => exact absurd hr (Files.readFile_no_err _ _ _ _)
    | panic => simp
  have no' : ∀ {α : Type} (q : Str) (f : Option Bytes → α), ((Files.readFile cab d q).map some).map f ≠ Res.err m := by
    intro α q f
    cases hr : Files.readFile cab d q with
    | ok b => simp
    | err m' => exact absurd hr (Files.readFile_no_err _ _ _ _)
    | panic => simp
  unfold osSpecificTryToFindPdb
  simp only
  split
  · split
    · exact no _ _
    · unfold tryToFindPdb
      simp only
      split
      · exact no' _ _
      · split
        · exact no' _ _
        · split
          · exact no' _ _
          · simp
  · simp

theorem osSpecific_name {cab : Cab} {d : Disk} {cwd path rec name : Str} {o : Option Bytes}
    (h : osSpecificTryToFindPdb cab d cwd path rec = .ok (o, name)) : name = [] ∨ ProperComp name := by
  unfold osSpecificTryToFindPdb at h
  simp only at h
  split at h
  · rename_i n hf
    right
    have : n = name := by
      split at h
      · cases hr : Files.readFile cab d (rec.map fun c => if c = '\\' then '/' else c) <;> rw [hr] at h <;> simp at h
        exact h.2
      · cases hr : tryToFindPdb cab d cwd path n <;> rw [hr] at h <;> simp at h
        exact h.2
    exact this ▸ fileName_proper_of hf
  · cases h; exact .inl rfl

/-- A PE and its PDB are found again on what the first search left. -/
theorem getPePdbBuf_again {net : Cache.Net} {parse : ParsePe} {cwd path : Str} {buf : Bytes} {servers : Option (List Cache.Server)}
    {w : Cache.World} {x : Option (Pe × Bytes × Str)} (har : ∀ js, ∀ j ∈ net.arrivals js, j ∈ js)
    (hroom : ∀ u st raw p, net.get u = some (st, raw) → raw.length ≤ net.room p)
    (hid : ∀ pe, parse buf = some pe → ProperComp pe.debugId)
    (h : (getPePdbBuf net parse cwd path buf servers w).1 = .ok x) {w' : Cache.World}
    (hw : w'.disk = (getPePdbBuf net parse cwd path buf servers w).2.disk) :
    (getPePdbBuf net parse cwd path buf servers w').1 = .ok x ∧ (getPePdbBuf net parse cwd path buf servers w').2.disk = w'.disk ∧
      ((getPePdbBuf net parse cwd path buf servers w).2.disk ≠ w.disk → ∀ net' : Cache.Net, net'.cab = net.cab →
        getPePdbBuf net' parse cwd path buf servers w' = (.ok x, w')) := by
  unfold getPePdbBuf at h hw ⊢
  cases hp : parse buf with
  | none => rw [hp] at h; cases h
  | some pe =>
    rw [hp] at h hw
    simp only at h hw ⊢
    cases hf : pe.debugFileName with
    | none => rw [hf] at h; exact ⟨h, rfl, fun hne => absurd rfl hne⟩
    | some rec =>
      rw [hf] at h hw
      simp only at h hw ⊢
      cases ho : osSpecificTryToFindPdb net.cab w.disk cwd path rec with
      | err m => exact absurd ho (osSpecific_no_err _ _ _ _ _ _)
      | panic => rw [ho] at h; cases h
      | ok v =>
        obtain ⟨pdb, name⟩ := v
        rw [ho] at h hw
        simp only at h hw ⊢
        by_cases hn : name = []
        · rw [if_pos hn] at h hw
          simp only at h hw
          rw [hw, ho]
          simp only [if_pos hn]
          exact ⟨h, hw, fun hne => absurd rfl hne⟩
        · rw [if_neg hn] at h hw
          rw [if_neg hn]
          cases pdb with
          | some pb =>
            simp only at h hw
            rw [hw, ho]
            simp only [if_neg hn]
            exact ⟨h, hw, fun hne => absurd rfl hne⟩
          | none =>
            simp only at h hw ⊢
            have hpn : ProperComp name := (osSpecific_name ho).resolve_left hn
            have hi := hid pe hp
            cases hs : (Cache.searchFile net name pe.debugId servers w).1 with
            | err m => rw [hs] at h; cases h
            | panic => rw [hs] at h; cases h
            | ok y =>
              have again := Cache.search_again hi hpn har hroom hs (w' := w') (fun p n hp => by rw [hw]; exact hp)
                (fun c => by rw [hw])
              rw [hs] at h
              by_cases hd : (Cache.searchFile net name pe.debugId servers w).2.disk = w.disk
              · rw [hw, hd, ho]
                simp only [if_neg hn]
                rw [again.1, again.2.1, hw, hd]
                exact ⟨h, rfl, fun hne => absurd rfl hne⟩
              · have off := again.2.2 hd
                obtain ⟨ss, b, jobs, j, p, rfl, rfl, hsc, hj, hck, hpc⟩ := Cache.stored hs hd
                have hserv := Cache.download_serves hs (Cache.searchInCache_none.mp hsc) har hj hck hpc (fun st raw hg => hroom _ st raw p hg)
                rcases Cache.searchFile_disk net name pe.debugId (some ss) w har with e | ⟨ss', s, c, raw, hss, hsm, hc, hfree, e⟩
                · exact absurd e hd
                · have hrd : Files.readFile net.cab (w.disk.write (Cache.cachePath c (Utils.getBase name) pe.debugId name) raw)
                      (Cache.cachePath c (Utils.getBase name) pe.debugId name) = .ok b := by
                    rw [e] at hserv
                    obtain ⟨c1, h1, raw1, h2, h3⟩ := hserv
                    have hc1 : Cache.cachePath c1 (Utils.getBase name) pe.debugId name =
                        Cache.cachePath c (Utils.getBase name) pe.debugId name := by
                      apply Decidable.byContradiction
                      intro hne
                      have hmem := List.mem_of_find?_eq_some h1
                      obtain ⟨c2, hc2, e2⟩ := List.mem_map.mp hmem
                      obtain ⟨s2, hs2, hcs2⟩ := List.mem_filterMap.mp hc2
                      cases hss
                      have := hfree s2 hs2 c2 hcs2
                      simp only [Disk.write, if_neg hne] at h2
                      rw [e2, h2] at this
                      cases this
                    rw [← hc1]
                    exact Cache.readFile_cached hi hpn (by rw [hc1] at h2 ⊢; exact h2) h3
                  have hfa := find_again ho hn hrd
                  have hx : x = some (pe, b, name) := by cases h; rfl
                  subst hx
                  rw [hw, e]
                  rw [e] at hw
                  refine ⟨?_, ?_, fun _ net' hcab => ?_⟩
                  · rcases hfa with ha | ha <;> rw [ha] <;> simp only [if_neg hn]
                    rw [off net rfl]; rfl
                  · rcases hfa with ha | ha <;> rw [ha] <;> simp only [if_neg hn]
                    · rw [off net rfl]; exact hw
                    · exact hw
                  · rw [hcab]
                    rcases hfa with ha | ha <;> rw [ha] <;> simp only [if_neg hn]
                    rw [off net' hcab]; rfl

end WinUtils
end DumpSyms
