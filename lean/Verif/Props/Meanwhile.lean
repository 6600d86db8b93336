import Verif.Props.Run
import Verif.Props.Inputs
/-!
# What the workers of a run over several files do to the disk while they read the inputs
-/
namespace DumpSyms
namespace Run
open Dumper

/-- What is on the disk stays there. -/
theorem Meanwhile.keeps {env : Env} {w w' : Cache.World} (h : Meanwhile env w w') {q : Str} {n : Node} (hq : w.disk q = some n) :
    w'.disk q = some n := by
  induction h with
  | start => exact hq
  | asked w' log h ih => exact ih
  | cached w' servers s dir name buf pe data h hs hm hc hn hpe hf ih =>
    simp only [Disk.write]
    rw [if_neg]
    · exact ih
    · rintro rfl; rw [hq] at hf; cases hf

/-- What is new on the disk is a file. -/
theorem Meanwhile.news {env : Env} {w w' : Cache.World} (h : Meanwhile env w w') {q : Str} {n : Node} (hq : w'.disk q = some n) :
    w.disk q = some n ∨ ∃ raw, n = .file raw true := by
  induction h with
  | start => exact .inl hq
  | asked w' log h ih => exact ih hq
  | cached w' servers s dir name buf pe data h hs hm hc hn hpe hf ih =>
    simp only [Disk.write] at hq
    split at hq
    · cases hq; exact .inr ⟨_, rfl⟩
    · exact ih hq

theorem Meanwhile.sane {env : Env} {w w' : Cache.World} (h : Meanwhile env w w') (hs : Sane env w.disk) : Sane env w'.disk where
  dirs := by
    intro q es hq
    rcases h.news hq with h | ⟨raw, h⟩
    · exact hs.dirs q es h
    · cases h
  room := hs.room
  arrivals := hs.arrivals
  cwd := hs.cwd

theorem Meanwhile.trans {env : Env} {w w' w'' : Cache.World} (h : Meanwhile env w w') (h' : Meanwhile env w' w'') : Meanwhile env w w'' := by
  induction h' with
  | start => exact h
  | asked w'' log _ ih => exact .asked _ log ih
  | cached w'' servers s dir name buf pe data _ hs hm hc hn hpe hf ih =>
    refine .cached _ servers s dir name buf pe data ih hs hm hc hn hpe ?_
    cases hq : w.disk (Cache.cachePath dir (Utils.getBase name) pe.debugId name) with
    | none => rfl
    | some n => rw [h.keeps hq] at hf; cases hf

theorem map_ok {α β : Type} {f : α → β} {r : Res α} {y : β} (h : r.map f = .ok y) : ∃ x, f x = y := by
  cases r with
  | ok x => cases h; exact ⟨x, rfl⟩
  | err m => cases h
  | panic => cases h

/-- Reading an input keeps to what `Meanwhile` says of the workers. -/
theorem parse_meanwhile {env : Env} {w : Cache.World} (hs : Sane env w.disk) (config : Config) (mapping : Option (List Mapping.Generator))
    (arch f : Str) : Meanwhile env w (parseInput env config mapping arch f w).2 := by
  have hsearch : ∀ (name : Str) (buf : Bytes) (pe : WinUtils.Pe) (servers : Option (List Cache.Server)), (∃ p, Path.fileName p = some name) →
      parsePe env.parsers buf = some pe → Cache.getSymServers env.home w.disk none = .ok servers →
      Meanwhile env w (Cache.searchFile env.net name pe.debugId servers w).2 := by
    intro name buf pe servers hn hpe hsv
    generalize hr : (Cache.searchFile env.net name pe.debugId servers w).2 = r
    have hd := Cache.searchFile_disk env.net name pe.debugId servers w hs.arrivals
    rw [hr] at hd
    obtain ⟨disk, log⟩ := r
    simp only at hd
    rcases hd with rfl | ⟨ss, s, c, raw, rfl, hss, hc, hfree, rfl⟩
    · exact .asked w log .start
    · have := Meanwhile.cached w ss s c name buf pe raw .start hsv hss hc hn hpe (hfree s hss c hc)
      exact .asked _ log this
  unfold parseInput
  split
  · split
    · rename_i filename hf _ buf hbuf
      unfold getObjectInfo
      split
      · exact .start
      · exact .start
      · have hr : Meanwhile env w (getPePdbObjectInfo env buf f filename mapping none config.emitInlines w).2 := by
          unfold getPePdbObjectInfo
          split
          · rename_i servers hsv
            have hb : Meanwhile env w (WinUtils.getPePdbBuf env.net (parsePe env.parsers) env.cwd f buf servers w).2 := by
              unfold WinUtils.getPePdbBuf
              split
              · exact .start
              · rename_i pe hpe
                split
                · exact .start
                · split
                  · rename_i pdb pdbName hos
                    split
                    · exact .start
                    · split
                      · exact .start
                      · refine hsearch pdbName buf pe servers ?_ hpe hsv
                        unfold WinUtils.osSpecificTryToFindPdb at hos
                        simp only at hos
                        split at hos
                        · rename_i name hname
                          have : name = pdbName := by
                            split at hos
                            · obtain ⟨x, e⟩ := map_ok hos; cases e
                            · obtain ⟨x, e⟩ := map_ok hos; cases e; rfl
                          exact ⟨_, this ▸ hname⟩
                        · cases hos; rename_i h; exact absurd rfl h
                  · exact .start
                  · exact .start
            simp only
            split
            · split <;> exact hb
            · exact hb
            · exact hb
            · exact hb
          · exact .start
          · exact .start
        simp only
        split <;> exact hr
      · exact .start
      · exact .start
    · exact .start
    · exact .start
  · exact .start
  · exact .start

/-- Without a configured symbol server the workers write nothing while they read the inputs. -/
theorem Meanwhile.same_disk {env : Env} {w w' : Cache.World} (h : Meanwhile env w w')
    (hno : ∀ servers, Cache.getSymServers env.home w.disk none ≠ .ok (some servers)) : w'.disk = w.disk := by
  induction h with
  | start => rfl
  | asked w' log h ih => exact ih
  | cached w' servers s dir name buf pe data h hs hm hc hn hpe hf ih => rw [ih] at hs; exact absurd hs (hno _)

/-- The result of a search does not depend on the requests made before. -/
theorem search_log (net : Cache.Net) (name id : Str) (servers : Option (List Cache.Server)) (d : Disk) (l l' : List Cache.Request) :
    (Cache.searchFile net name id servers ⟨d, l⟩).1 = (Cache.searchFile net name id servers ⟨d, l'⟩).1 := by
  have hf : ∀ jobs, (Cache.fetchData net jobs ⟨d, l⟩).1 = (Cache.fetchData net jobs ⟨d, l'⟩).1 := by
    intro jobs
    unfold Cache.fetchData
    simp only
    split
    · rfl
    · split <;> rfl
  unfold Cache.searchFile
  split
  · rfl
  · split
    · rfl
    · simp only
      split
      · rfl
      · split
        · simp only [hf]
          split
          · split <;> rfl
          · rfl
          · rfl
          · rfl
        · rfl
        · rfl

/-- What is read for an input depends on the disk only. -/
theorem parse_log (env : Env) (config : Config) (mapping : Option (List Mapping.Generator)) (arch f : Str) (d : Disk) (l l' : List Cache.Request) :
    (parseInput env config mapping arch f ⟨d, l⟩).1 = (parseInput env config mapping arch f ⟨d, l'⟩).1 := by
  have hb : ∀ path buf servers, (WinUtils.getPePdbBuf env.net (parsePe env.parsers) env.cwd path buf servers ⟨d, l⟩).1 =
      (WinUtils.getPePdbBuf env.net (parsePe env.parsers) env.cwd path buf servers ⟨d, l'⟩).1 := by
    intro path buf servers
    unfold WinUtils.getPePdbBuf
    split
    · rfl
    · split
      · rfl
      · simp only
        split
        · split
          · rfl
          · split
            · rfl
            · simp only [search_log env.net _ _ _ d l l']
        · rfl
        · rfl
  unfold parseInput
  split
  · simp only
    split
    · unfold getObjectInfo
      split
      · rfl
      · rfl
      · have : ∀ path buf filename, (getPePdbObjectInfo env buf path filename mapping none config.emitInlines ⟨d, l⟩).1 =
            (getPePdbObjectInfo env buf path filename mapping none config.emitInlines ⟨d, l'⟩).1 := by
          intro path buf filename
          unfold getPePdbObjectInfo
          simp only
          split
          · simp only [hb _ _ _]
            split
            · split <;> rfl
            · rfl
            · rfl
            · rfl
          · rfl
          · rfl
        simp only [this]
        split <;> rfl
      · rfl
      · rfl
    · rfl
    · rfl
  · rfl
  · rfl

/-- Without a configured symbol server, what is read for an input is what would be read for it at the start. -/
theorem parse_start {env : Env} {w w' : Cache.World} (h : Meanwhile env w w')
    (hno : ∀ servers, Cache.getSymServers env.home w.disk none ≠ .ok (some servers)) (config : Config)
    (mapping : Option (List Mapping.Generator)) (arch f : Str) :
    (parseInput env config mapping arch f w).1 = (parseInput env config mapping arch f w').1 := by
  have := h.same_disk hno
  obtain ⟨d, l⟩ := w
  obtain ⟨d', l'⟩ := w'
  cases this
  exact parse_log env config mapping arch f _ l l'

/-- **C69, no symbol server configured.** With a store, no ids, and nothing going wrong: an input whose debug id no other input has gets, in a
run over several files, the same symbol file as in a run of its own. -/
theorem C69_no_server (env : Env) (extra : Option (List Str)) (config : Config) (files : List Str) (w : Cache.World)
    (orders : Orders) (out : Output.World) (mapping : Option (List Mapping.Generator)) (arch : Str)
    (hlen : files.length ≠ 1) (hprep : prepare env config = .ok (mapping, arch)) (horder : ∀ t, (orders.results t).Perm t)
    (hs : config.symbolServer = none) (hdi : config.debugId = none) (hci : config.codeId = none)
    (hno : ∀ servers, Cache.getSymServers env.home w.disk none ≠ .ok (some servers))
    (hparse : ∀ f ∈ files, ∃ o, (parseInput env config mapping arch f w).1 = .ok o ∧ ProperComp o.debugId)
    (hworks : Works env extra config (threads env extra config files (fun _ => w) orders mapping arch out))
    (dir : Str) (hd : dir ≠ []) (hstore : config.output = .store dir)
    (r : Res Unit) (out' : Output.World) (h : Acts env extra files w orders out (.dump config) r out') (hr : r = .ok ())
    (i : Nat) (f : Str) (hi : files[i]? = some f)
    (hone : ∀ j g oj oi, files[j]? = some g → (parseInput env config mapping arch g w).1 = .ok oj →
      (parseInput env config mapping arch f w).1 = .ok oi → oj.debugId = oi.debugId → j = i) :
    ∃ o t p, (readSingle env config f w).1 = .ok o ∧ o.display extra = .ok t ∧ InStore dir o.fileName o.debugId p ∧
      (singleFile env extra config f w out).1 = .ok () ∧
      (singleFile env extra config f w out).2.2.files p = some (Utf8.encode t) ∧ out'.files p = some (Utf8.encode t) := by
  cases h with
  | single _ g hg => rw [hg] at hlen; exact absurd rfl hlen
  | several _ ws r out' hlen hw h =>
    subst hr
    have hsame : ∀ i f, (parseInput env config mapping arch f w).1 = (parseInput env config mapping arch f (ws i)).1 :=
      fun i f => parse_start (hw i) hno config mapping arch f
    have hT : threads env extra config files ws orders mapping arch out = threads env extra config files (fun _ => w) orders mapping arch out := by
      unfold threads
      congr 1
      funext i
      split
      · exact (hsame i _).symm
      · rfl
    refine C69_same_as_alone env extra config files ws orders out out' mapping arch hlen hprep horder hs hdi hci ?_ (hT ▸ hworks) dir hd hstore h
      i f hi ?_ w (hsame i f)
    · intro i f hi
      rw [← hsame]
      exact hparse f (List.mem_of_getElem? hi)
    · intro j g oj oi hj h1 h2
      rw [← hsame] at h1 h2
      exact hone j g oj oi hj h1 h2

end Run
end DumpSyms
