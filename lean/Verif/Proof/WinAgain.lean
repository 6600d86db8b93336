import Verif.Proof.Again
import Verif.Props.WinDumper
/-!
# Running again on a Windows machine: what a run left on the disk gives the same answers (for C127)
-/
namespace DumpSyms
namespace WinHost
open Cache (Net World Server Job)
open Dumper (Env Config)

theorem holds_within {cab : Cab} {d d' : Disk} (h : d.Within d') {p : Str} {b : Bytes} (hh : Holds cab d p b) : Holds cab d' p b := by
  obtain ⟨pre, n, raw, h1, h2, h3, h4, h5⟩ := hh
  exact ⟨pre, n, raw, h1, h2, h3, h _ _ h4, h5⟩

theorem pathHolds_within {cab : Cab} {d d' : Disk} (h : d.Within d') {p : Str} {b : Bytes} (hh : PathHolds cab d p b) : PathHolds cab d' p b := by
  cases hh with
  | file h1 => exact .file (holds_within h h1)
  | bundle es h1 h2 =>
    obtain ⟨dwarf, e, q, h3, h4, h5, h6⟩ := h2
    exact .bundle es (h _ _ h1) ⟨dwarf, e, q, h3, h _ _ h4, h5, holds_within h h6⟩

/-- The places of a file in the caches are the same on two disks. -/
def SamePlaces (d d' : Disk) (ss : List Server) (name id : Str) : Prop :=
  ∀ s ∈ ss, ∀ c, s.cache = some c → ∀ p, Kept c name id p → d' p = d p

theorem notCached_same {d d' : Disk} {ss : List Server} {name id : Str} (h : SamePlaces d d' ss name id) (hn : NotCached d ss name id) :
    NotCached d' ss name id := by
  intro s hs c hc p hp
  rw [h s hs c hc p hp]
  exact hn s hs c hc p hp

/-- A network that answers nothing. -/
def deadNet (net : Net) : Net := { net with arrivals := fun _ => [], get := fun _ => none }

/-- What a search that stored something leaves: the file is there for every later search, whatever the network. -/
theorem stored_cached {net : Net} {name id : Str} {ss : List Server} {w w1 w' : World} {x : Option Bytes} (hn : WinProper name) (hi : WinProper id)
    (hd : ∀ q es, w.disk q = some (.dir es) → ∀ e ∈ es, WinProper e) (hd' : ∀ q es, w'.disk q = some (.dir es) → ∀ e ∈ es, WinProper e)
    (hroom : ∀ u st raw p, net.get u = some (st, raw) → raw.length ≤ net.room p) (har : ∀ js, ∀ j ∈ net.arrivals js, j ∈ js)
    (hcs : PlainCaches ss) (h : Search net name id (some ss) w x w1) (hst : w1.disk ≠ w.disk) (hpl : SamePlaces w1.disk w'.disk ss name id) :
    ∃ b p, x = some b ∧ FirstCached w'.disk ss name id p ∧ PathHolds net.cab w'.disk p b := by
  have hx : ∃ b, x = some b := by
    cases h with
    | noName _ _ h => exact absurd h hn.1
    | cached => exact ⟨_, rfl⟩
    | nowhere => exact absurd rfl hst
    | failed => exact absurd rfl hst
    | refused => exact absurd rfl hst
    | fetched => exact ⟨_, rfl⟩
    | stored => exact ⟨_, rfl⟩
  obtain ⟨b, rfl⟩ := hx
  have h0 := ((C110_search net name id (some ss) w hn hi hd hroom har (fun _ e => by cases e; exact hcs)).1 _ _).mpr h
  have h1 := C110_served_back hn hi hd hroom har hcs h0 hst hpl (deadNet net) rfl
  have h2 := ((C110_search (deadNet net) name id (some ss) w' hn hi hd' (by intro u st raw p h; cases h) (by intro js j h; cases h)
    (fun _ e => by cases e; exact hcs)).1 _ _).mp h1
  generalize w' = w2 at h2 hpl hd' h1 ⊢
  have key : ∀ w3 : World, Search (deadNet net) name id (some ss) w2 (some b) w3 →
      ∃ p, FirstCached w2.disk ss name id p ∧ PathHolds net.cab w2.disk p b := by
    intro w3 h
    cases h with
    | cached _ _ p _ _ hf hh => exact ⟨p, hf, hh⟩
    | fetched _ _ _ _ _ _ _ _ _ _ _ _ hg => cases hg
    | stored _ _ _ _ _ _ _ _ _ _ _ _ _ hg => cases hg
  obtain ⟨p, hf, hh⟩ := key _ h2
  exact ⟨b, p, rfl, hf, hh⟩

/-- What a search found is found again on a disk with more files, when the places of the searched file are as the search left them. -/
theorem search_again {net : Net} {name id : Str} {servers : Option (List Server)} {w w1 w' : World} {x : Option Bytes} (hn : WinProper name)
    (hi : WinProper id) (hd : ∀ q es, w.disk q = some (.dir es) → ∀ e ∈ es, WinProper e)
    (hd' : ∀ q es, w'.disk q = some (.dir es) → ∀ e ∈ es, WinProper e)
    (hroom : ∀ u st raw p, net.get u = some (st, raw) → raw.length ≤ net.room p) (har : ∀ js, ∀ j ∈ net.arrivals js, j ∈ js)
    (hcs : ∀ ss, servers = some ss → PlainCaches ss) (h : Search net name id servers w x w1) (hw : w1.disk.Within w'.disk)
    (hpl : ∀ ss, servers = some ss → SamePlaces w1.disk w'.disk ss name id) :
    (∃ w2, Search net name id servers w' x w2 ∧ w2.disk = w'.disk) ∧
      (w1.disk ≠ w.disk → ∀ net' : Net, net'.cab = net.cab → Search net' name id servers w' x w') := by
  by_cases hst : w1.disk = w.disk
  · refine ⟨?_, fun hne => absurd hst hne⟩
    rw [hst] at hw hpl
    cases h with
    | noName _ _ h => exact absurd h hn.1
    | noServers => exact ⟨_, .noServers _, rfl⟩
    | cached ss _ p b h0 h1 h2 =>
      have hs := hpl ss rfl
      obtain ⟨before, s, after, c, rfl, hb, hc, hk, hx⟩ := h1
      refine ⟨_, .cached _ w' p b h0 ⟨before, s, after, c, rfl, ?_, hc, hk, ?_⟩ (pathHolds_within hw h2), rfl⟩
      · exact notCached_same (fun s hs' => hs s (by simp [hs'])) hb
      · rw [hs s (by simp) c hc p hk]; exact hx
    | nowhere ss _ jobs h0 h1 h2 h3 => exact ⟨_, .nowhere ss w' jobs h0 (notCached_same (hpl ss rfl) h1) h2 h3, rfl⟩
    | failed ss _ jobs j js h0 h1 h2 h3 h4 => exact ⟨_, .failed ss w' jobs j js h0 (notCached_same (hpl ss rfl) h1) h2 h3 h4, rfl⟩
    | refused ss _ jobs j js st raw h0 h1 h2 h3 h4 h5 =>
      exact ⟨_, .refused ss w' jobs j js st raw h0 (notCached_same (hpl ss rfl) h1) h2 h3 h4 h5, rfl⟩
    | fetched ss _ jobs j js st raw b h0 h1 h2 h3 h4 h5 h6 h7 =>
      exact ⟨_, .fetched ss w' jobs j js st raw b h0 (notCached_same (hpl ss rfl) h1) h2 h3 h4 h5 h6 h7, rfl⟩
    | stored ss _ jobs j js st raw b dir h0 h1 h2 h3 h4 h5 h6 h7 h8 h9 =>
      exfalso
      have hj : j ∈ jobs := har _ _ (by rw [h3]; simp)
      obtain ⟨s, hs, c, hc, e⟩ := getJobs_cache ((askedAll_iff (hcs ss rfl) hn hi).mp h2) hj h6
      have hk : Kept c name id (dir ++ '\\' :: name) := (kept_iff (hcs ss rfl s hs c hc) hn hi).mpr e
      exact Cache.write_ne (h1 s hs c hc _ hk) hst
  · cases servers with
    | none =>
      cases h with
      | noName => exact absurd rfl hst
      | noServers => exact absurd rfl hst
    | some ss =>
      obtain ⟨b, p, rfl, h1, h2⟩ := stored_cached hn hi hd hd' hroom har (hcs ss rfl) h hst (hpl ss rfl)
      exact ⟨⟨w', .cached ss w' p b hn.1 h1 h2, rfl⟩, fun _ net' hcab => .cached ss w' p b hn.1 h1 (hcab ▸ h2)⟩

/-- A search changes at most one place, which was free and is a place of the file in one of the caches. -/
theorem search_disk {net : Net} {name id : Str} {servers : Option (List Server)} {w w1 : World} {x : Option Bytes} (hn : WinProper name)
    (hi : WinProper id) (har : ∀ js, ∀ j ∈ net.arrivals js, j ∈ js)
    (hcs : ∀ ss, servers = some ss → PlainCaches ss) (h : Search net name id servers w x w1) :
    w1.disk = w.disk ∨ ∃ ss b p raw s c, servers = some ss ∧ x = some b ∧ s ∈ ss ∧ s.cache = some c ∧ Kept c name id p ∧ w.disk p = none ∧
      w1.disk = w.disk.write p raw ∧ Holds net.cab w1.disk p b := by
  cases h with
  | noName => exact .inl rfl
  | noServers => exact .inl rfl
  | cached => exact .inl rfl
  | nowhere => exact .inl rfl
  | failed => exact .inl rfl
  | refused => exact .inl rfl
  | fetched => exact .inl rfl
  | stored ss _ jobs j js st raw b dir h0 h1 h2 h3 h4 h5 h6 h7 h8 h9 =>
    right
    have hj : j ∈ jobs := har _ _ (by rw [h3]; simp)
    obtain ⟨s, hs, c, hc, e⟩ := getJobs_cache ((askedAll_iff (hcs ss rfl) hn hi).mp h2) hj h6
    have hk : Kept c name id (dir ++ '\\' :: name) := (kept_iff (hcs ss rfl s hs c hc) hn hi).mpr e
    refine ⟨ss, b, _, raw, s, c, rfl, rfl, hs, hc, hk, h1 s hs c hc _ hk, rfl, ?_⟩
    obtain ⟨_, a, d, e2, ha, hd'⟩ := cachePath_parts (hcs ss rfl s hs c hc) (getBase_win hn).2 hi hn
    have e3 : dir ++ '\\' :: name = (a ++ ((d ++ id) ++ ['\\'])) ++ name := by rw [e, e2]; simp
    have hp : WinDirPart (a ++ ((d ++ id) ++ ['\\'])) := by
      refine ⟨a, _, rfl, ?_, .inr ⟨d ++ id, '\\', rfl, rfl⟩⟩
      rw [show (d ++ id) ++ '\\' :: name = ((d ++ id) ++ ['\\']) ++ name by simp] at ha
      exact anchored_prefix ha
    exact ⟨_, name, raw, e3, hp, hn, by simp [Disk.write], h9⟩

theorem search_within {net : Net} {name id : Str} {servers : Option (List Server)} {w w1 : World} {x : Option Bytes} (hn : WinProper name)
    (hi : WinProper id) (har : ∀ js, ∀ j ∈ net.arrivals js, j ∈ js) (hcs : ∀ ss, servers = some ss → PlainCaches ss)
    (h : Search net name id servers w x w1) : w.disk.Within w1.disk := by
  intro p n hp
  rcases search_disk hn hi har hcs h with e | ⟨ss, b, q, raw, s, c, _, _, _, _, _, hfree, e, _⟩
  · rw [e]; exact hp
  · rw [e]
    unfold Disk.write
    split
    · rename_i hq
      rw [hq, hfree] at hp
      cases hp
    · exact hp

/-- The servers found are found on a disk with more files, if there are any. -/
theorem configured_within {home : Option Str} {d d' : Disk} (h : d.Within d') {o : Option Str} {ss : List Server}
    (hs : Configured home d o (some ss)) : Configured home d' o (some ss) := by
  cases hs with
  | given s l h1 => exact .given s _ h1
  | config hm conf raw s l h1 h2 h3 h4 h5 => exact .config hm conf raw s _ h1 h2 (h _ _ h3) h4 h5

/-- Looking for a file leaves the servers as they are. -/
theorem configured_search {home : Option Str} {o : Option Str} {net : Net} {name id : Str} {servers : Option (List Server)} {w w1 : World}
    {x : Option Bytes} (hn : WinProper name) (hi : WinProper id) (har : ∀ js, ∀ j ∈ net.arrivals js, j ∈ js)
    (hcs : ∀ ss, servers = some ss → PlainCaches ss) (hs : Configured home w.disk o servers) (h : Search net name id servers w x w1) :
    Configured home w1.disk o servers := by
  cases servers with
  | some ss => exact configured_within (search_within hn hi har hcs h) hs
  | none =>
    rcases search_disk hn hi har hcs h with e | ⟨ss, b, q, raw, s, c, e, _⟩
    · rw [e]; exact hs
    · cases e

theorem split_sep {a b x y : Str} {s : Char} (hs : winSep s = true) (hx : NoSep x) (hy : NoSep y) (h : a ++ s :: x = b ++ s :: y) : a = b ∧ x = y := by
  have l1 := lastPiece_sep (s := a) hs hx
  have l2 := lastPiece_sep (s := b) hs hy
  have c1 := cutLast_sep (s := a) hs hx
  have c2 := cutLast_sep (s := b) hs hy
  rw [h] at l1 c1
  exact ⟨c1.symm.trans c2, l1.symm.trans l2⟩

/-- Places in caches differ for different names and ids. -/
theorem kept_inj {c c' name name' id id' p : Str} (hn : WinProper name) (hi : WinProper id) (hn' : WinProper name') (hi' : WinProper id')
    (h : Kept c name id p) (h' : Kept c' name' id' p) : id = id' ∧ name = name' := by
  obtain ⟨b, _, h⟩ := h
  obtain ⟨b', _, h'⟩ := h'
  obtain ⟨z, e, _⟩ := inside_sep h
  obtain ⟨z', e', _⟩ := inside_sep h'
  have e2 : (c ++ z ++ b ++ '\\' :: id) ++ '\\' :: name = (c' ++ z' ++ b' ++ '\\' :: id') ++ '\\' :: name' := by
    have := e.symm.trans e'
    simpa using this
  obtain ⟨e3, e4⟩ := split_sep (by decide) hn.2.1 hn'.2.1 e2
  exact ⟨(split_sep (by decide) hi.2.1 hi'.2.1 e3).2, e4⟩

theorem first_of_mem {x : Str} {l : List Str} (h : x ∈ l) : ∃ before after, l = before ++ x :: after ∧ x ∉ before := by
  induction l with
  | nil => cases h
  | cons y l ih =>
    by_cases hxy : x = y
    · exact ⟨[], l, by rw [hxy]; rfl, by simp⟩
    · obtain ⟨b, a, e, hb⟩ := ih ((List.mem_cons.mp h).resolve_left hxy)
      exact ⟨y :: b, a, by rw [e]; rfl, by simp [hxy, hb]⟩

/-- The PDB of a PE is found again on what the first search left. -/
theorem pdbFor_again {net : Net} {cwd path id : Str} {servers : Option (List Server)} {w w1 w' : World} {recorded : Option Str}
    {y : Option (Bytes × Str)} (hi : WinProper id) (hd : ∀ q es, w.disk q = some (.dir es) → ∀ e ∈ es, WinProper e)
    (hroom : ∀ u st raw p, net.get u = some (st, raw) → raw.length ≤ net.room p) (har : ∀ js, ∀ j ∈ net.arrivals js, j ∈ js)
    (hcs : ∀ ss, servers = some ss → PlainCaches ss) (h : PdbFor net cwd path id servers w recorded y w1) (hw : w'.disk = w1.disk) :
    (∃ w2, PdbFor net cwd path id servers w' recorded y w2 ∧ w2.disk = w'.disk) ∧
      (w1.disk ≠ w.disk → ∀ net' : Net, net'.cab = net.cab → PdbFor net' cwd path id servers w' recorded y w') := by
  cases h with
  | unnamed => exact ⟨⟨_, .unnamed, rfl⟩, fun hne => absurd rfl hne⟩
  | noFile r h1 => exact ⟨⟨_, .noFile r h1, rfl⟩, fun hne => absurd rfl hne⟩
  | onDisk pre name ps before p after b h1 h2 h3 h4 h5 h6 h7 =>
    exact ⟨⟨_, .onDisk pre name ps before p after b h1 h2 h3 h4 (by rw [hw]; exact h5) (by rw [hw]; exact h6) (by rw [hw]; exact h7), rfl⟩,
      fun hne => absurd rfl hne⟩
  | searched pre name ps x _ h1 h2 h3 h4 h5 =>
    have hd' : ∀ q es, w'.disk q = some (.dir es) → ∀ e ∈ es, WinProper e := by
      intro q es hq
      rw [hw] at hq
      exact hd q es (search_dirs h5 hq)
    have again := search_again h2 hi hd hd' hroom har hcs h5 (w' := w') (by rw [hw]; exact fun _ _ h => h)
      (fun ss _ s _ c _ p _ => by rw [hw])
    rcases search_disk h2 hi har hcs h5 with e | ⟨ss, b, q, raw, s, c, rfl, rfl, hs, hc, hk, hfree, e, hh⟩
    · obtain ⟨⟨w2, ha, hb⟩, _⟩ := again
      exact ⟨⟨w2, .searched pre name ps x w2 h1 h2 h3 (by rw [hw, e]; exact h4) ha, hb⟩, fun hne => absurd e hne⟩
    · have hne : w1.disk ≠ w.disk := by rw [e]; exact Cache.write_ne hfree
      have hfile : ∀ p, IsFile w'.disk p → p = q ∨ IsFile w.disk p := by
        intro p hp
        rw [hw, e] at hp
        by_cases hpq : p = q
        · exact .inl hpq
        · right
          simpa [IsFile, Disk.write, hpq] using hp
      have all : ∀ net' : Net, net'.cab = net.cab → PdbFor net' cwd path id (some ss) w' (some (pre ++ name)) (some (b, name)) w' := by
        intro net' hcab
        by_cases hm : q ∈ ps
        · obtain ⟨before, after, e1, hnb⟩ := first_of_mem hm
          refine .onDisk pre name ps before q after b h1 h2 h3 e1 ?_ ?_ ?_
          · intro p hp hf
            rcases hfile p hf with rfl | hf
            · exact hnb hp
            · exact h4 p (by rw [e1]; simp [hp]) hf
          · rw [hw]; exact holds_file hh
          · rw [hw, hcab]; exact hh
        · refine .searched pre name ps (some b) w' h1 h2 h3 ?_ (again.2 hne net' hcab)
          intro p hp hf
          rcases hfile p hf with rfl | hf
          · exact hm hp
          · exact h4 p hp hf
      exact ⟨⟨w', all net rfl, rfl⟩, fun _ => all⟩

end WinHost
end DumpSyms
