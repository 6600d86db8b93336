import Verif.Proof.Again
import Verif.Props.Dumper
/-!
# C93: running again
-/
namespace DumpSyms

namespace Output

/-- What writing does to any state of the destinations: the outcome is `r`, the files at the paths where `patch` has contents get those contents,
and `so` and `se` are appended to the two streams. -/
def Does (f : World → Res Unit × World) (r : Res Unit) (patch : Str → Option Bytes) (so se : Bytes) : Prop :=
  ∀ w, (f w).1 = r ∧ (∀ q, (f w).2.files q = (patch q).or (w.files q)) ∧ (f w).2.stdout = w.stdout ++ so ∧ (f w).2.stderr = w.stderr ++ se

theorem does_nothing (r : Res Unit) : Does (fun w => (r, w)) r (fun _ => none) [] [] :=
  fun w => ⟨rfl, fun _ => rfl, by simp, by simp⟩

theorem does_receive (fo : FileOutput) (bytes : Bytes) (r : Res Unit) :
    ∃ patch so se, Does (fun w => (r, w.receive fo bytes)) r patch so se := by
  cases fo with
  | path p =>
    refine ⟨fun q => if q = p then some bytes else none, [], [], fun w => ⟨rfl, fun q => ?_, by simp [World.receive], by simp [World.receive]⟩⟩
    by_cases h : q = p <;> simp [World.receive, h]
  | stdout => exact ⟨fun _ => none, bytes, [], fun w => ⟨rfl, fun q => rfl, rfl, by simp [World.receive]⟩⟩
  | stderr => exact ⟨fun _ => none, [], bytes, fun w => ⟨rfl, fun q => rfl, by simp [World.receive], rfl⟩⟩

theorem does_writeTo (io : IoEnv) (text : Res Str) (fo : FileOutput) : ∃ r patch so se, Does (writeTo io text fo) r patch so se := by
  by_cases ho : opens io fo = true
  · cases text with
    | ok t =>
      obtain ⟨p, a, b, h⟩ := does_receive fo (dump (io.room fo) io.capacity (io.chunks t)).2
        (if (dump (io.room fo) io.capacity (io.chunks t)).1 then .ok () else .err (str% "write"))
      exact ⟨_, p, a, b, fun w => by unfold writeTo; rw [if_pos ho]; exact h w⟩
    | err m =>
      obtain ⟨p, a, b, h⟩ := does_receive fo [] (.err m)
      exact ⟨_, p, a, b, fun w => by unfold writeTo; rw [if_pos ho]; exact h w⟩
    | panic =>
      obtain ⟨p, a, b, h⟩ := does_receive fo [] .panic
      exact ⟨_, p, a, b, fun w => by unfold writeTo; rw [if_pos ho]; exact h w⟩
  · exact ⟨.panic, fun _ => none, [], [], fun w => by unfold writeTo; rw [if_neg ho]; exact does_nothing .panic w⟩

theorem does_writeStore (io : IoEnv) (text : Res Str) (p : Str) : ∃ r patch so se, Does (writeStore io text p) r patch so se := by
  cases hp : Path.parent p with
  | none => exact ⟨.panic, fun _ => none, [], [], fun w => by unfold writeStore; rw [hp]; exact does_nothing .panic w⟩
  | some d =>
    by_cases hm : io.mkdirs d = true
    · obtain ⟨r, q, a, b, h⟩ := does_writeTo io text (.path p)
      exact ⟨r, q, a, b, fun w => by unfold writeStore; rw [hp]; simp only [if_pos hm]; exact h { w with dirs := d :: w.dirs }⟩
    · exact ⟨_, fun _ => none, [], [], fun w => by unfold writeStore; rw [hp]; simp only [if_neg hm]; exact does_nothing _ w⟩

theorem does_then {f g : World → Res Unit × World} {r r' : Res Unit} {p1 p2 : Str → Option Bytes} {a1 a2 b1 b2 : Bytes}
    (h1 : Does f r p1 a1 b1) (h2 : Does g r' p2 a2 b2) :
    ∃ r patch so se, Does (fun w => match (f w).1 with | .ok () => g (f w).2 | _ => f w) r patch so se := by
  cases r with
  | ok u =>
    refine ⟨r', fun q => (p2 q).or (p1 q), a1 ++ a2, b1 ++ b2, fun w => ?_⟩
    obtain ⟨e1, f1, s1, t1⟩ := h1 w
    obtain ⟨e2, f2, s2, t2⟩ := h2 (f w).2
    simp only [e1]
    refine ⟨e2, fun q => ?_, ?_, ?_⟩
    · rw [f2 q, f1 q, Option.or_assoc]
    · rw [s2, s1, List.append_assoc]
    · rw [t2, t1, List.append_assoc]
  | err m => exact ⟨.err m, p1, a1, b1, fun w => by simpa only [(h1 w).1] using h1 w⟩
  | panic => exact ⟨.panic, p1, a1, b1, fun w => by simpa only [(h1 w).1] using h1 w⟩

theorem does_store (io : IoEnv) (extra : Option (List Str)) (out : Out) (checkCfi : Bool) (o : ObjectInfo) :
    ∃ r patch so se, Does (store io extra out checkCfi o) r patch so se := by
  by_cases hc : (checkCfi && !o.hasStack) = true
  · exact ⟨_, fun _ => none, [], [], fun w => by unfold store; rw [if_pos hc]; exact does_nothing _ w⟩
  · cases hd1 : (destinations out o).1 with
    | none =>
      cases hd2 : (destinations out o).2 with
      | none => exact ⟨_, _, _, _, fun w => by simp only [store, if_neg hc, hd1, hd2]; exact does_nothing (.ok ()) w⟩
      | some p =>
        obtain ⟨_, _, _, _, h1⟩ := does_writeStore io (o.display extra) p
        obtain ⟨_, _, _, _, h⟩ := does_then h1 (does_nothing (.ok ()))
        exact ⟨_, _, _, _, fun w => by simp only [store, if_neg hc, hd1, hd2]; exact h w⟩
    | some fo =>
      obtain ⟨_, _, _, _, h2⟩ := does_writeTo io (o.display extra) fo
      cases hd2 : (destinations out o).2 with
      | none => exact ⟨_, _, _, _, fun w => by simp only [store, if_neg hc, hd1, hd2]; exact h2 w⟩
      | some p =>
        obtain ⟨_, _, _, _, h1⟩ := does_writeStore io (o.display extra) p
        obtain ⟨_, _, _, _, h⟩ := does_then h1 h2
        exact ⟨_, _, _, _, fun w => by simp only [store, if_neg hc, hd1, hd2]; exact h w⟩

end Output

namespace Dumper
open Path

/-- What a search for the PDB of a PE may leave on the disk. -/
theorem pePdb_disk (env : Env) (path : Str) (buf : Bytes) (servers : Option (List Cache.Server)) (w : Cache.World)
    (hid : ∀ b pe r, env.parsers.pe b = some (pe, r) → ProperComp pe.debugId) :
    (WinUtils.getPePdbBuf env.net (parsePe env.parsers) env.cwd path buf servers w).2.disk = w.disk ∨
      ∃ ss name id, servers = some ss ∧ ProperComp name ∧ ProperComp id ∧
        (WinUtils.getPePdbBuf env.net (parsePe env.parsers) env.cwd path buf servers w).2 = (Cache.searchFile env.net name id (some ss) w).2 := by
  unfold WinUtils.getPePdbBuf
  cases hp : parsePe env.parsers buf with
  | none => exact .inl rfl
  | some pe =>
    simp only
    have hi : ProperComp pe.debugId := by
      unfold parsePe at hp
      cases hq : env.parsers.pe buf with
      | none => rw [hq] at hp; cases hp
      | some v =>
        rw [hq] at hp
        cases hp
        exact hid buf v.1 v.2 hq
    cases pe.debugFileName with
    | none => exact .inl rfl
    | some r =>
      simp only
      cases ho : WinUtils.osSpecificTryToFindPdb env.net.cab w.disk env.cwd path r with
      | err m => exact .inl rfl
      | panic => exact .inl rfl
      | ok v =>
        obtain ⟨pdb, name⟩ := v
        simp only
        by_cases hn : name = []
        · rw [if_pos hn]; exact .inl rfl
        · rw [if_neg hn]
          cases pdb with
          | some b => exact .inl rfl
          | none =>
            cases servers with
            | none => left; unfold Cache.searchFile; simp only; split <;> rfl
            | some ss => exact .inr ⟨ss, name, pe.debugId, rfl, (WinUtils.osSpecific_name ho).resolve_left hn, hi, rfl⟩

/-- The disk after `get_object_info`. -/
theorem object_disk (env : Env) (buf : Bytes) (path filename : Str) (mapping : Option (List Mapping.Generator)) (arch : Str)
    (server : Option Str) (inlines : Bool) (w : Cache.World)
    (hid : ∀ b pe r, env.parsers.pe b = some (pe, r) → ProperComp pe.debugId) :
    (getObjectInfo env buf path filename mapping arch server inlines w).2.disk = w.disk ∨
      ∃ ss name id, Cache.getSymServers env.home w.disk server = .ok (some ss) ∧ ProperComp name ∧ ProperComp id ∧
        (getObjectInfo env buf path filename mapping arch server inlines w).2 = (Cache.searchFile env.net name id (some ss) w).2 := by
  unfold getObjectInfo
  cases env.parsers.peek buf with
  | elf => exact .inl rfl
  | pdb => exact .inl rfl
  | machO => exact .inl rfl
  | other => exact .inl rfl
  | pe =>
    have key : (getPePdbObjectInfo env buf path filename mapping server inlines w).2.disk = w.disk ∨
        ∃ ss name id, Cache.getSymServers env.home w.disk server = .ok (some ss) ∧ ProperComp name ∧ ProperComp id ∧
          (getPePdbObjectInfo env buf path filename mapping server inlines w).2 = (Cache.searchFile env.net name id (some ss) w).2 := by
      unfold getPePdbObjectInfo
      cases hs : Cache.getSymServers env.home w.disk server with
      | err m => exact .inl rfl
      | panic => exact .inl rfl
      | ok servers =>
        simp only
        have e : ∀ z : Res ObjectInfo × Cache.World, z.2 = (WinUtils.getPePdbBuf env.net (parsePe env.parsers) env.cwd path buf servers w).2 →
            z.2.disk = w.disk ∨ ∃ ss name id, Res.ok servers = .ok (some ss) ∧ ProperComp name ∧ ProperComp id ∧
              z.2 = (Cache.searchFile env.net name id (some ss) w).2 := by
          intro z hz
          rw [hz]
          rcases pePdb_disk env path buf servers w hid with h | ⟨ss, name, id, rfl, hn, hi, h⟩
          · exact .inl h
          · exact .inr ⟨ss, name, id, rfl, hn, hi, h⟩
        apply e
        split
        · split <;> rfl
        · rfl
        · rfl
        · rfl
    simp only
    split <;> exact key

theorem object_again {env : Env} {buf : Bytes} {path filename : Str} {mapping : Option (List Mapping.Generator)} {arch : Str}
    {server : Option Str} {inlines : Bool} {w : Cache.World} {m : ObjectInfo} (har : ∀ js, ∀ j ∈ env.net.arrivals js, j ∈ js)
    (hroom : ∀ u st raw p, env.net.get u = some (st, raw) → raw.length ≤ env.net.room p)
    (hid : ∀ b pe r, env.parsers.pe b = some (pe, r) → ProperComp pe.debugId)
    (h : (getObjectInfo env buf path filename mapping arch server inlines w).1 = .ok m) {w' : Cache.World}
    (hw : w'.disk = (getObjectInfo env buf path filename mapping arch server inlines w).2.disk) :
    (getObjectInfo env buf path filename mapping arch server inlines w').1 = .ok m ∧
      (getObjectInfo env buf path filename mapping arch server inlines w').2.disk = w'.disk ∧
      ((getObjectInfo env buf path filename mapping arch server inlines w).2.disk ≠ w.disk → ∀ net' : Cache.Net, net'.cab = env.net.cab →
        getObjectInfo { env with net := net' } buf path filename mapping arch server inlines w' = (.ok m, w')) := by
  have hod := object_disk env buf path filename mapping arch server inlines w hid
  unfold getObjectInfo at h hw ⊢
  cases hpk : env.parsers.peek buf with
  | elf => rw [hpk] at h hw; exact ⟨h, rfl, fun hne => absurd rfl hne⟩
  | pdb => rw [hpk] at h hw; simp only at h hw ⊢; rw [hw]; exact ⟨h, trivial, fun hne => absurd rfl hne⟩
  | machO => rw [hpk] at h hw; exact ⟨h, rfl, fun hne => absurd rfl hne⟩
  | other => rw [hpk] at h hw; exact ⟨h, rfl, fun hne => absurd rfl hne⟩
  | pe =>
    have hod' : ∀ ss', Cache.getSymServers env.home w.disk server = .ok ss' → Cache.getSymServers env.home w'.disk server = .ok ss' := by
      intro ss' hs
      unfold getObjectInfo at hod
      rw [hw]
      rcases hod with e | ⟨ss, name, id, h1, _, _, e⟩
      · rw [e]; exact hs
      · rw [h1] at hs
        cases hs
        rw [e]
        exact Cache.getSymServers_within (Cache.search_within env.net name id (some ss) w har) h1
    rw [hpk] at h hw
    simp only at h hw ⊢
    have hwd : w'.disk = (getPePdbObjectInfo env buf path filename mapping server inlines w).2.disk := by
      rw [hw]; split <;> rfl
    -- the outcome of the search for the PDB is the same
    have key : (getPePdbObjectInfo env buf path filename mapping server inlines w').1 =
          (getPePdbObjectInfo env buf path filename mapping server inlines w).1 ∧
        (getPePdbObjectInfo env buf path filename mapping server inlines w').2.disk = w'.disk ∧
        ((getPePdbObjectInfo env buf path filename mapping server inlines w).2.disk ≠ w.disk → ∀ net' : Cache.Net, net'.cab = env.net.cab →
          getPePdbObjectInfo { env with net := net' } buf path filename mapping server inlines w' =
            ((getPePdbObjectInfo env buf path filename mapping server inlines w).1, w')) := by
      unfold getPePdbObjectInfo at h hwd ⊢
      cases hs : Cache.getSymServers env.home w.disk server with
      | err m' =>
        rw [hs] at hwd
        simp only at hwd
        rw [hwd, hs]
        exact ⟨rfl, hwd, fun hne => absurd rfl hne⟩
      | panic => rw [hs] at h; cases h
      | ok servers =>
        rw [hod' servers hs]
        rw [hs] at h hwd
        simp only at h hwd ⊢
        have hwd' : w'.disk = (WinUtils.getPePdbBuf env.net (parsePe env.parsers) env.cwd path buf servers w).2.disk := by
          rw [hwd]
          split
          · split <;> rfl
          · rfl
          · rfl
          · rfl
        have hpid : ∀ pe, parsePe env.parsers buf = some pe → ProperComp pe.debugId := by
          intro pe hp
          unfold parsePe at hp
          cases hq : env.parsers.pe buf with
          | none => rw [hq] at hp; cases hp
          | some v => rw [hq] at hp; cases hp; exact hid buf v.1 v.2 hq
        cases hr : (WinUtils.getPePdbBuf env.net (parsePe env.parsers) env.cwd path buf servers w).1 with
        | panic => rw [hr] at h; cases h
        | err m' =>
          exfalso
          unfold WinUtils.getPePdbBuf at hr
          cases hp : parsePe env.parsers buf with
          | none => rw [hp] at hr; cases hr
          | some pe =>
            rw [hp] at hr
            simp only at hr
            cases hf : pe.debugFileName with
            | none => rw [hf] at hr; cases hr
            | some r =>
              rw [hf] at hr
              simp only at hr
              cases ho : WinUtils.osSpecificTryToFindPdb env.net.cab w.disk env.cwd path r with
              | err m => exact WinUtils.osSpecific_no_err _ _ _ _ _ _ ho
              | panic => rw [ho] at hr; cases hr
              | ok v =>
                obtain ⟨pdb, name⟩ := v
                rw [ho] at hr
                simp only at hr
                split at hr
                · cases hr
                · cases pdb with
                  | some b => cases hr
                  | none =>
                    simp only at hr
                    cases hs : (Cache.searchFile env.net name pe.debugId servers w).1 with
                    | err m => exact Cache.search_no_err _ _ _ _ _ _ hs
                    | panic => rw [hs] at hr; cases hr
                    | ok y => rw [hs] at hr; cases hr
        | ok x =>
          obtain ⟨a1, a2, a3⟩ := WinUtils.getPePdbBuf_again har hroom hpid hr hwd'
          rw [a1]
          cases x with
          | none =>
            simp only
            exact ⟨trivial, a2, fun hne net' hcab => by
              simp only [hod' servers hs, a3 hne net' hcab]⟩
          | some v =>
            obtain ⟨pe, pb, pn⟩ := v
            simp only
            cases hpp : env.parsers.pdb pb with
            | error m' =>
              simp only
              exact ⟨trivial, a2, fun hne net' hcab => by
                simp only [hod' servers hs, a3 hne net' hcab, hpp]⟩
            | ok pdb =>
              simp only
              exact ⟨trivial, a2, fun hne net' hcab => by
                simp only [hod' servers hs, a3 hne net' hcab, hpp]
                rfl⟩
    obtain ⟨k1, k2, k3⟩ := key
    rw [k1]
    refine ⟨?_, ?_, fun hne net' hcab => ?_⟩
    · cases hg : (getPePdbObjectInfo env buf path filename mapping server inlines w).1 with
      | ok i => rw [hg] at h; exact h
      | err m' => rw [hg] at h; exact h
      | panic => rw [hg] at h; cases h
    · split <;> exact k2
    · rw [k3 (by rw [← hwd, hw]; exact hne) net' hcab]
      cases hg : (getPePdbObjectInfo env buf path filename mapping server inlines w).1 with
      | ok i => rw [hg] at h; cases h; simp only [hpk]
      | err m' => rw [hg] at h; simp only at h; simp only [hpk]; rw [← h]; rfl
      | panic => rw [hg] at h; cases h


/-- Getting the file again. -/
theorem get_again {env : Env} {config : Config} {path filename : Str} {w : Cache.World} {buf : Bytes}
    (har : ∀ js, ∀ j ∈ env.net.arrivals js, j ∈ js)
    (hroom : ∀ u st raw p, env.net.get u = some (st, raw) → raw.length ≤ env.net.room p)
    (hid : ∀ id, config.debugId.or config.codeId = some id → ProperComp id) (hn : ProperComp filename)
    (h : (getFromId env config path filename w).1 = .ok buf) {w' : Cache.World}
    (hw : (getFromId env config path filename w).2.disk.Within w'.disk)
    (hpl : ∀ id, config.debugId.or config.codeId = some id → ∀ c, w'.disk (Cache.cachePath c (Utils.getBase filename) id filename) =
      (getFromId env config path filename w).2.disk (Cache.cachePath c (Utils.getBase filename) id filename)) :
    (getFromId env config path filename w').1 = .ok buf ∧ (getFromId env config path filename w').2.disk = w'.disk := by
  unfold getFromId at h hw hpl ⊢
  cases hc : config.debugId.or config.codeId with
  | none => rw [hc] at h hw; exact ⟨Files.readFile_within hw h, rfl⟩
  | some id =>
    rw [hc] at h hw hpl
    have hpl := hpl id rfl
    simp only at h hw hpl ⊢
    cases hs : Cache.getSymServers env.home w.disk config.symbolServer with
    | err m => rw [hs] at h; cases h
    | panic => rw [hs] at h; cases h
    | ok servers =>
      rw [hs] at h hw hpl
      simp only at h hw hpl
      cases hr : (Cache.searchFile env.net filename id servers w).1 with
      | err m => rw [hr] at h; cases h
      | panic => rw [hr] at h; cases h
      | ok x =>
        rw [hr] at h hw hpl
        cases x with
        | none => cases h
        | some b =>
          cases h
          simp only at hw hpl
          cases servers with
          | none => unfold Cache.searchFile at hr; rw [if_neg hn.1] at hr; cases hr
          | some ss =>
            have hww : w.disk.Within w'.disk := fun p n hp => hw p n (Cache.search_within env.net filename id (some ss) w har p n hp)
            rw [Cache.getSymServers_within hww hs]
            have again := Cache.search_again (hid id hc) hn har hroom hr hw hpl
            simp only
            rw [again.1]
            exact ⟨rfl, again.2.1⟩

/-- Reading a file, with the names used: the parts of a successful `readSingle`. -/
theorem readSingle_ok {env : Env} {config : Config} {path : Str} {w : Cache.World} {m : ObjectInfo}
    (h : (readSingle env config path w).1 = .ok m) :
    ∃ filename buf mapping arch, fileName path = some filename ∧ (getFromId env config path filename w).1 = .ok buf ∧
      prepare env config = .ok (mapping, arch) ∧
      readSingle env config path w = getObjectInfo env buf path filename mapping arch config.symbolServer config.emitInlines
        (getFromId env config path filename w).2 := by
  unfold readSingle at h ⊢
  cases hf : Utils.getFilename path with
  | err m => rw [hf] at h; cases h
  | panic => rw [hf] at h; cases h
  | ok filename =>
    rw [hf] at h
    simp only at h ⊢
    have hfn : fileName path = some filename := by
      unfold Utils.getFilename at hf
      cases hq : fileName path with
      | none => rw [hq] at hf; cases hf
      | some n => rw [hq] at hf; cases hf; rfl
    cases hg : (getFromId env config path filename w).1 with
    | err m => rw [hg] at h; cases h
    | panic => rw [hg] at h; cases h
    | ok buf =>
      rw [hg] at h
      simp only at h
      cases hp : prepare env config with
      | err m => rw [hp] at h; cases h
      | panic => rw [hp] at h; cases h
      | ok ma => exact ⟨filename, buf, ma.1, ma.2, hfn, hg, rfl, rfl⟩

theorem read_again {env : Env} {config : Config} {path : Str} {w : Cache.World} {m : ObjectInfo}
    (har : ∀ js, ∀ j ∈ env.net.arrivals js, j ∈ js)
    (hroom : ∀ u st raw p, env.net.get u = some (st, raw) → raw.length ≤ env.net.room p)
    (hid : ∀ id, config.debugId.or config.codeId = some id → ProperComp id)
    (hpe : ∀ b pe r, env.parsers.pe b = some (pe, r) → ProperComp pe.debugId)
    (h : (readSingle env config path w).1 = .ok m) :
    (readSingle env config path (readSingle env config path w).2).1 = .ok m ∧
      (readSingle env config path (readSingle env config path w).2).2.disk = (readSingle env config path w).2.disk ∧
      (config.debugId.or config.codeId = none → (readSingle env config path w).2.disk ≠ w.disk →
        ∀ net' : Cache.Net, net'.cab = env.net.cab →
          readSingle { env with net := net' } config path (readSingle env config path w).2 = (.ok m, (readSingle env config path w).2)) := by
  obtain ⟨filename, buf, mapping, arch, hf, hg, hp, e⟩ := readSingle_ok h
  have hfn := WinUtils.fileName_proper_of hf
  have hgf : Utils.getFilename path = .ok filename := by unfold Utils.getFilename; rw [hf]
  rw [e] at h ⊢
  generalize hw0 : (getFromId env config path filename w).2 = w0 at h ⊢
  generalize hw1 : (getObjectInfo env buf path filename mapping arch config.symbolServer config.emitInlines w0).2 = w1
  -- what the second search left
  have hd := object_disk env buf path filename mapping arch config.symbolServer config.emitInlines w0 hpe
  have hwithin : w0.disk.Within w1.disk := by
    rw [← hw1]
    rcases hd with e | ⟨ss, name, id, _, _, _, e⟩ <;> rw [e]
    · exact fun _ _ h => h
    · exact Cache.search_within _ _ _ _ _ har
  have hpl : ∀ id, config.debugId.or config.codeId = some id → ∀ c, w1.disk (Cache.cachePath c (Utils.getBase filename) id filename) =
      w0.disk (Cache.cachePath c (Utils.getBase filename) id filename) := by
    intro id hc c
    rw [← hw1]
    rcases hd with e | ⟨ss, name, id', hs, hn', hi', e⟩
    · rw [e]
    · rw [e]
      by_cases hsame : id' = id ∧ name = filename
      · -- the same file was searched: it is found again
        obtain ⟨rfl, rfl⟩ := hsame
        have hq := hg
        have hq2 := hw0
        unfold getFromId at hq hq2
        rw [hc] at hq hq2
        simp only at hq hq2
        cases hs0 : Cache.getSymServers env.home w.disk config.symbolServer with
        | err m => rw [hs0] at hq; cases hq
        | panic => rw [hs0] at hq; cases hq
        | ok servers =>
          rw [hs0] at hq hq2
          simp only at hq hq2
          cases hr : (Cache.searchFile env.net name id' servers w).1 with
          | err m => rw [hr] at hq; cases hq
          | panic => rw [hr] at hq; cases hq
          | ok x =>
            rw [hr] at hq hq2
            cases x with
            | none => cases hq
            | some b =>
              simp only at hq2
              cases servers with
              | none => unfold Cache.searchFile at hr; rw [if_neg hn'.1] at hr; cases hr
              | some ss0 =>
                have hse := Cache.getSymServers_within (Cache.search_within env.net name id' (some ss0) w har) hs0
                rw [hq2, hs] at hse
                cases hse
                have again := Cache.search_again (hid id' hc) hfn har hroom hr (w' := w0) (by rw [hq2]; exact fun _ _ h => h) (fun c => by rw [hq2])
                rw [again.2.1]
      · rcases Cache.searchFile_disk env.net name id' (some ss) w0 har with e2 | ⟨ss', s, c', raw, _, _, _, _, e2⟩
        · rw [e2]
        · rw [e2]
          have hne : Cache.cachePath c (Utils.getBase filename) id filename ≠ Cache.cachePath c' (Utils.getBase name) id' name := by
            intro heq
            obtain ⟨h1, h2⟩ := Cache.cachePath_inj (hid id hc) hfn hi' hn' heq
            exact hsame ⟨h1.symm, h2.symm⟩
          simp only [Disk.write, if_neg hne]
  have g := get_again har hroom hid hfn hg (w' := w1) (by rw [hw0]; exact hwithin) (by rw [hw0]; exact hpl)
  have o := object_again har hroom hpe h (w' := (getFromId env config path filename w1).2) (by rw [g.2, hw1])
  refine ⟨?_, ?_, fun hby hne net' hcab => ?_⟩
  · unfold readSingle
    rw [hgf]
    simp only [g.1, hp]
    exact o.1
  · unfold readSingle
    rw [hgf]
    simp only [g.1, hp]
    rw [o.2.1, g.2]
  · have hw : w0 = w := by
      rw [← hw0]; unfold getFromId; rw [hby]
    have hb : (getFromId { env with net := net' } config path filename w1) = (.ok buf, w1) := by
      have h1 := g.1
      unfold getFromId at h1 ⊢
      rw [hby] at h1 ⊢
      simp only at h1 ⊢
      rw [hcab, h1]
    unfold readSingle
    rw [hgf]
    simp only [hb]
    rw [show prepare { env with net := net' } config = prepare env config from rfl, hp]
    simp only
    have o' := object_again har hroom hpe h (w' := w1) (by rw [hw1])
    exact o'.2.2 (by rw [hw1, hw]; exact hne) net' hcab


/-- **C93.** A run on one file that got a module, repeated on what it left (with the same answers of the symbol servers), gives the same module and the
same outcome, downloads nothing into the caches, leaves every file as it is and prints the same text again. -/
theorem C93_again (env : Env) (extra : Option (List Str)) (config : Config) (path : Str) (w : Cache.World) (out : Output.World)
    (m : ObjectInfo) (har : ∀ js, ∀ j ∈ env.net.arrivals js, j ∈ js)
    (hroom : ∀ u st raw p, env.net.get u = some (st, raw) → raw.length ≤ env.net.room p)
    (hid : ∀ id, config.debugId.or config.codeId = some id → ProperComp id)
    (hpe : ∀ b pe r, env.parsers.pe b = some (pe, r) → ProperComp pe.debugId) (h : (readSingle env config path w).1 = .ok m)
    {r : Res Unit} {w1 : Cache.World} {out1 : Output.World} (h1 : singleFile env extra config path w out = (r, w1, out1)) :
    (readSingle env config path w1).1 = .ok m ∧
    ∃ w2 out2, singleFile env extra config path w1 out1 = (r, w2, out2) ∧ w2.disk = w1.disk ∧ out2.files = out1.files ∧
      (∃ so, out1.stdout = out.stdout ++ so ∧ out2.stdout = out1.stdout ++ so) ∧
      (∃ se, out1.stderr = out.stderr ++ se ∧ out2.stderr = out1.stderr ++ se) := by
  obtain ⟨a1, a2, _⟩ := read_again har hroom hid hpe h
  obtain ⟨r0, patch, so, se, hs⟩ := Output.does_store env.io extra config.output config.checkCfi m
  simp only [singleFile, h, Prod.mk.injEq] at h1
  obtain ⟨rfl, rfl, rfl⟩ := h1
  simp only [singleFile, a1]
  obtain ⟨e1, f1, s1, t1⟩ := hs out
  obtain ⟨e2, f2, s2, t2⟩ := hs (Output.store env.io extra config.output config.checkCfi m out).2
  refine ⟨trivial, _, _, Prod.ext (e2.trans e1.symm) rfl, a2, ?_, ⟨so, s1, s2⟩, ⟨se, t1, t2⟩⟩
  funext q
  rw [f2 q, f1 q]
  cases patch q <;> rfl

/-- **C93, without a network.** When the first run, given no id, put something in a cache, the second one makes no request, whatever the network. -/
theorem C93_offline (env : Env) (config : Config) (path : Str) (w : Cache.World) (m : ObjectInfo)
    (har : ∀ js, ∀ j ∈ env.net.arrivals js, j ∈ js)
    (hroom : ∀ u st raw p, env.net.get u = some (st, raw) → raw.length ≤ env.net.room p)
    (hpe : ∀ b pe r, env.parsers.pe b = some (pe, r) → ProperComp pe.debugId) (hid : config.debugId.or config.codeId = none)
    {w1 : Cache.World} (h : readSingle env config path w = (.ok m, w1)) (hd : w1.disk ≠ w.disk) (net' : Cache.Net) (hcab : net'.cab = env.net.cab) :
    readSingle { env with net := net' } config path w1 = (.ok m, w1) := by
  have := read_again har hroom (by intro id hc; rw [hid] at hc; cases hc) hpe (congrArg Prod.fst h)
  rw [h] at this
  exact this.2.2 hid hd net' hcab

/-- **C93, the earlier contents.** What a run writes does not depend on what its destinations held: for any two earlier states the outcome is the
same, and every path either holds the same after both or is untouched by both. -/
theorem C93_contents (env : Env) (extra : Option (List Str)) (config : Config) (path : Str) (w : Cache.World) (out out' : Output.World) :
    (singleFile env extra config path w out).1 = (singleFile env extra config path w out').1 ∧
      ∀ q, (singleFile env extra config path w out).2.2.files q = (singleFile env extra config path w out').2.2.files q ∨
        ((singleFile env extra config path w out).2.2.files q = out.files q ∧
          (singleFile env extra config path w out').2.2.files q = out'.files q) := by
  unfold singleFile
  simp only
  cases (readSingle env config path w).1 with
  | err m => exact ⟨rfl, fun q => .inr ⟨rfl, rfl⟩⟩
  | panic => exact ⟨rfl, fun q => .inr ⟨rfl, rfl⟩⟩
  | ok m =>
    obtain ⟨r0, patch, so, se, hs⟩ := Output.does_store env.io extra config.output config.checkCfi m
    obtain ⟨e1, f1, _, _⟩ := hs out
    obtain ⟨e2, f2, _, _⟩ := hs out'
    refine ⟨e1.trans e2.symm, fun q => ?_⟩
    simp only
    rw [f1 q, f2 q]
    cases patch q with
    | some b => exact .inl rfl
    | none => exact .inr ⟨rfl, rfl⟩

/-! ### Examples -/

/-- A server that has the PDB of `a.dll`, and a disk taking `room` bytes per file. -/
def againNet (room : Nat) : Cache.Net :=
  { Cache.exNet room (200, [2]) (fun _ => none) with get := fun u => if u = str% "http://s/m.pdb/A1/m.pd_" then some (200, [2]) else none }

def againEnv (room : Nat) : Env := { exEnv with net := againNet room }

def againConfig : Config := { exConfig with symbolServer := some (str% "srv*/c*http://s"), output := .fileAndStore .stdout (str% "/store") }

/-- The module, the number of functions and the number of requests of a run, and of the same run again with the second network. -/
def againTwice (room : Nat) (net' : Cache.Net) : (Res (Str × Nat) × Nat) × (Res (Str × Nat) × Nat) :=
  let a := readSingle (againEnv room) againConfig (str% "/d/a.dll") (exWorld [(str% "/d/a.dll", .file [3] true)])
  let b := readSingle { againEnv room with net := net' } againConfig (str% "/d/a.dll") a.2
  ((a.1.map fun o => (o.fileName, o.symbols.length), a.2.log.length), (b.1.map fun o => (o.fileName, o.symbols.length), b.2.log.length))

/-- Three requests at first, none again, even without a network. -/
example : againTwice 1000 (Cache.exDown fun _ => none) = ((.ok (str% "m.pdb", 1), 3), (.ok (str% "m.pdb", 1), 3)) := by decide +kernel

theorem again_arrivals (js : List Cache.Job) : ∀ j ∈ (againEnv 1000).net.arrivals js, j ∈ js := fun _ h => (List.mem_filter.mp h).1

theorem again_room (u : Str) (st : Nat) (raw : Bytes) (p : Str) (h : (againEnv 1000).net.get u = some (st, raw)) :
    raw.length ≤ (againEnv 1000).net.room p := by
  simp only [againEnv, againNet] at h
  split at h
  · cases h; exact Nat.le_of_ble_eq_true rfl
  · cases h

theorem again_pe (b : Bytes) (pe : ObjInput) (r : Option Str) (h : (againEnv 1000).parsers.pe b = some (pe, r)) : ProperComp pe.debugId := by
  simp only [againEnv, exEnv, exParsers] at h
  split at h
  · cases h; unfold ProperComp; decide
  · cases h; unfold ProperComp; decide
  · cases h

/-- The theorems are about this run. -/
example (w1 : Cache.World) (m : ObjectInfo)
    (h : readSingle (againEnv 1000) againConfig (str% "/d/a.dll") (exWorld [(str% "/d/a.dll", .file [3] true)]) = (.ok m, w1)) :
    readSingle { againEnv 1000 with net := Cache.exDown fun _ => none } againConfig (str% "/d/a.dll") w1 = (.ok m, w1) := by
  refine C93_offline _ _ _ _ _ again_arrivals again_room again_pe rfl h (fun e => ?_) _ rfl
  have e1 : w1.disk (str% "/c/m.pdb/A1/m.pdb") = some (.file [2] true) := by
    rw [← congrArg (fun x => x.2.disk (str% "/c/m.pdb/A1/m.pdb")) h]; decide +kernel
  rw [e] at e1
  revert e1
  decide

/-- The hypothesis on the room is needed: on a full disk an empty file stays in the cache, and the PE is dumped alone the second time. -/
theorem C93_full_disk_witness : againTwice 0 (againNet 0) = ((.ok (str% "m.pdb", 1), 3), (.ok (str% "m.pdb", 0), 3)) := by decide +kernel

end Dumper
end DumpSyms
