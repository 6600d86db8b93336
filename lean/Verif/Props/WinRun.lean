import Verif.Proof.WinWriting
import Verif.Props.Meanwhile
import Verif.Props.Moments
/-!
# C114: several files on a Windows machine
-/
namespace DumpSyms
namespace WinHost
open WinPath
open Dumper (Env Config parsePe prepare getPeObjectInfo)
open Run (Orders Works merge_fileName holds_seen map_ok)

/-- Whether writing a module succeeds does not depend on what has been written before. -/
theorem store_result (io : Output.IoEnv) (extra : Option (List Str)) (out : Output.Out) (checkCfi : Bool) (o : ObjectInfo)
    (w w' : Output.World) : (store io extra out checkCfi o w).1 = (store io extra out checkCfi o w').1 := by
  have hto : ∀ text fo v v', (Output.writeTo io text fo v).1 = (Output.writeTo io text fo v').1 := by
    intro text fo v v'
    unfold Output.writeTo
    split
    · cases text <;> rfl
    · rfl
  have hst : ∀ text p v v', (writeStore io text p v).1 = (writeStore io text p v').1 := by
    intro text p v v'
    unfold writeStore
    cases parent p with
    | none => rfl
    | some d =>
      simp only
      split
      · exact hto _ _ _ _
      · rfl
  unfold store
  split
  · rfl
  · simp only
    cases (destinations out o).2 with
    | none =>
      simp only
      cases (destinations out o).1 with
      | none => rfl
      | some fo => exact hto _ _ _ _
    | some p =>
      simp only
      rw [hst (o.display extra) p w w']
      cases h : (writeStore io (o.display extra) p w').1 with
      | ok u =>
        simp only
        cases (destinations out o).1 with
        | none => rfl
        | some fo => exact hto _ _ _ _
      | err m => simp only; rw [hst (o.display extra) p w w', h]
      | panic => simp only; rw [hst (o.display extra) p w w', h]

/-- The place of a module in the store. -/
def placeOf (dir : Str) (o : ObjectInfo) : Str := push dir (getPathForSym o.fileName o.debugId)

/-- What the input number `i` of a run over several files is read as. -/
theorem threads_parse {env : Env} {extra : Option (List Str)} {config : Config} {files : List Str} {ws : Nat → Cache.World} {orders : Orders}
    {mapping : Option (List Mapping.Generator)} {arch : Str} {out : Output.World} {i : Nat} {f : Str} (h : files[i]? = some f) :
    (threads env extra config files ws orders mapping arch out).parse i = (parseInput env config mapping arch f (ws i)).1 := by
  simp only [threads, h]

/-- What is made of modules with names Windows allows has such a name. -/
theorem made_names {T : Threads.Env} (hp : ∀ i o, T.parse i = .ok o → WinProper o.fileName ∧ WinProper o.debugId) {l : List Nat} {o : ObjectInfo}
    (h : Threads.Made T l o) : WinProper o.fileName ∧ WinProper o.debugId := by
  induction h with
  | one f o ho => exact hp f o ho
  | more f l o p c ho _ hm ih =>
    refine ⟨?_, ?_⟩
    · rcases merge_fileName hm with e | e
      · rw [e]; exact (hp f o ho).1
      · rw [e]; exact ih.1
    · rw [(merge_ok hm).2]; exact (hp f o ho).2

/-- A place in the store is asked for by modules of one debug id only. -/
theorem place_id {config : Config} {T : Threads.Env} {dir : Str} (hd : dir ≠ []) (hs : PlainStore config.output)
    (hstore : config.output = .store dir ∨ ∃ fo, config.output = .fileAndStore fo dir ∧
      ∀ l o, Threads.MadeOnce T l o → fo ≠ .path (placeOf dir o))
    (hname : ∀ l o, Threads.MadeOnce T l o → WinProper o.fileName ∧ WinProper o.debugId)
    {l : List Nat} {o : ObjectInfo} (hm : Threads.MadeOnce T l o) {l' : List Nat} {o' : ObjectInfo} (hm' : Threads.MadeOnce T l' o')
    (hreq : Requested config.output o' (.path (placeOf dir o))) : o.debugId = o'.debugId := by
  have hpath : placeOf dir o = placeOf dir o' := by
    rw [requested_iff hs (hname _ _ hm').1 (hname _ _ hm').2] at hreq
    rcases hstore with h | ⟨fo, h, hfo⟩
    · rw [h] at hreq
      simp only [destinations, symStorePath_of_ne hd, reduceCtorEq, Option.some.injEq, Output.FileOutput.path.injEq,
        false_or, exists_eq_left'] at hreq
      exact hreq
    · rw [h] at hreq
      simp only [destinations, symStorePath_of_ne hd, Option.some.injEq, Output.FileOutput.path.injEq,
        exists_eq_left'] at hreq
      rcases hreq with hreq | hreq
      · exact absurd hreq (hfo _ _ hm)
      · exact hreq
  exact (C104_distinct (hname _ _ hm).1 (hname _ _ hm').1 (hname _ _ hm).2 (hname _ _ hm').2 hpath).1

theorem threads_names {env : Env} {extra : Option (List Str)} {config : Config} {files : List Str} {ws : Nat → Cache.World} {orders : Orders}
    {mapping : Option (List Mapping.Generator)} {arch : Str} {out : Output.World}
    (hnames : ∀ (i : Nat) f o, files[i]? = some f → (parseInput env config mapping arch f (ws i)).1 = .ok o → WinProper o.fileName ∧ WinProper o.debugId)
    {l : List Nat} {o : ObjectInfo} (h : Threads.Made (threads env extra config files ws orders mapping arch out) l o) :
    WinProper o.fileName ∧ WinProper o.debugId := by
  refine made_names (fun j o ho => ?_) h
  cases hj : files[j]? with
  | none => simp only [threads, hj] at ho; cases ho
  | some g =>
    rw [threads_parse hj] at ho
    exact hnames j g o hj ho

/-- When every input can be read and gets an allowed name, nothing else comes of it. -/
theorem names_of {P : ObjectInfo → Prop} {files : List Str} {read : Nat → Str → Res ObjectInfo}
    (h : ∀ (i : Nat) f, files[i]? = some f → ∃ o, read i f = .ok o ∧ P o) (i : Nat) (f : Str) (o : ObjectInfo) (hi : files[i]? = some f)
    (ho : read i f = .ok o) : P o := by
  obtain ⟨o', h1, h2⟩ := h i f hi
  rw [ho] at h1; cases h1; exact h2

theorem readSingle_parse (env : Env) (config : Config) (path : Str) (w : Cache.World) (h1 : config.symbolServer = none)
    (h2 : config.debugId = none) (h3 : config.codeId = none) {mapping : Option (List Mapping.Generator)} {arch : Str}
    (hp : prepare env config = .ok (mapping, arch)) :
    readSingle env config path w = parseInput env config mapping arch path w := by
  unfold readSingle parseInput
  cases getFilename path with
  | ok filename =>
    simp only [getFromId_by_path env config path filename w h2 h3]
    cases readFile env.net.cab w.disk path with
    | ok b => simp only [hp, h1]
    | err m => rfl
    | panic => rfl
  | err m => rfl
  | panic => rfl

/-- What a run over several files has written when it ends, if every input can be read and nothing goes wrong with writing. -/
theorem several_log {env : Env} {extra : Option (List Str)} {config : Config} {files : List Str} {ws : Nat → Cache.World}
    {orders : Orders} {out out' : Output.World} {mapping : Option (List Mapping.Generator)} {arch : Str}
    (hlen : files.length ≠ 1) (hprep : prepare env config = .ok (mapping, arch)) (horder : ∀ t, (orders.results t).Perm t) (hplain : PlainStore config.output)
    (hparse : ∀ (i : Nat) f, files[i]? = some f → ∃ o, (parseInput env config mapping arch f (ws i)).1 = .ok o ∧ WinProper o.fileName ∧ WinProper o.debugId)
    (hworks : Works env extra config (threads env extra config files ws orders mapping arch out))
    (h : SeveralFiles env extra config files ws orders out (.ok ()) out') :
    ∃ log : List Threads.Item, (log.map fun d => d.info.debugId).Nodup ∧
      (∀ d ∈ log, Threads.MadeOnce (threads env extra config files ws orders mapping arch out) d.src d.info ∧
        ∀ j, j ∈ d.src ↔ ∃ g oj, files[j]? = some g ∧ (parseInput env config mapping arch g (ws j)).1 = .ok oj ∧ oj.debugId = d.info.debugId) ∧
      (∀ (i : Nat) f oi, files[i]? = some f → (parseInput env config mapping arch f (ws i)).1 = .ok oi → ∃ d ∈ log, d.info.debugId = oi.debugId) ∧
      ∀ fo, (∀ l o l' o', Threads.MadeOnce (threads env extra config files ws orders mapping arch out) l o →
          Threads.MadeOnce (threads env extra config files ws orders mapping arch out) l' o' →
          Requested config.output o fo → Requested config.output o' fo → o.debugId = o'.debugId) →
        ∀ d ∈ log, Requested config.output d.info fo →
          out'.seen fo = (store env.io extra config.output config.checkCfi d.info out).2.seen fo := by
  generalize hr : (Res.ok () : Res Unit) = r at h
  cases h with
  | badOptions m h => cases hr
  | badMapping h => cases hr
  | crashed mapping' arch' m h hs hc => cases hr
  | returned mapping' arch' m h hmom hret =>
    rw [hprep] at h; cases h
    have hs := Threads.moments_reach hmom
    generalize hsm : m.s = s at hs hret
    have hT : ∀ j g, files[j]? = some g → (threads env extra config files ws orders mapping arch out).parse j =
        (parseInput env config mapping arch g (ws j)).1 := fun j g hg => threads_parse hg
    have hst : ∀ l o, Threads.MadeOnce (threads env extra config files ws orders mapping arch out) l o →
        (threads env extra config files ws orders mapping arch out).store o = .ok () := by
      intro l o hm
      obtain ⟨t, ht, hroom⟩ := hworks.prints l o hm
      obtain ⟨w', h1, _⟩ := store_complete env.io extra config.output config.checkCfi o out hplain (threads_names (names_of hparse) hm.2.2).1 (threads_names (names_of hparse) hm.2.2).2
        (fun hc => hworks.cfi hc _ _ hm) ht
        (hworks.chunks t) hworks.mkdirs (fun p _ => hworks.create p) (fun fo _ => hroom fo)
      simp only [threads, h1]
    obtain ⟨hnodup, hmods⟩ := Threads.C49_once (threads env extra config files ws orders mapping arch out) horder s hs
    refine ⟨s.log, hnodup, ?_, ?_, ?_⟩
    · intro d hd
      obtain ⟨m1, m2, m3⟩ := hmods d hd
      refine ⟨⟨m2, fun f hf => ((m3 f).mp hf).1, m1⟩, fun j => ?_⟩
      rw [m3 j]
      constructor
      · rintro ⟨hj, o, h1, h2⟩
        have hj' : j < files.length := hj
        rw [hT j _ (List.getElem?_eq_getElem hj')] at h1
        exact ⟨_, o, List.getElem?_eq_getElem hj', h1, h2⟩
      · rintro ⟨g, o, hg, h1, h2⟩
        exact ⟨(List.getElem?_eq_some_iff.mp hg).1, o, by rw [hT j g hg]; exact h1, h2⟩
    · intro i f oi hi hoi
      have hcount := Threads.C50_complete (threads env extra config files ws orders mapping arch out) horder hlen (by
          intro j hj
          have hj' : j < files.length := hj
          obtain ⟨o, h1, _⟩ := hparse j files[j] (List.getElem?_eq_getElem hj')
          exact ⟨o, by rw [hT j _ (List.getElem?_eq_getElem hj')]; exact h1⟩)
        hst s hs hret i (List.getElem?_eq_some_iff.mp hi).1 oi.debugId ⟨oi, by rw [hT i f hi]; exact hoi, rfl⟩
      have hin : oi.debugId ∈ s.log.map fun d => d.info.debugId := List.count_pos_iff.mp (by omega)
      exact List.mem_map.mp hin
    · intro fo honly d hd hreq
      have hg := Threads.moments_going_of (env := threads env extra config files ws orders mapping arch out) (req := Requested config.output)
        (part := fun o fo => Output.Partway extra o fo (out.seen fo)) (fin := fun o fo => (store env.io extra config.output config.checkCfi o out).2.seen fo)
        horder (fun _ _ hm _ ht _ hf => todoOf_dest hplain (threads_names (names_of hparse) hm.2.2).1 (threads_names (names_of hparse) hm.2.2).2 ht hf)
        (fun o => ⟨along_todoOf hworks.chunks fo _, (todoOf_store env.io extra config.output config.checkCfi o fo out).2⟩) honly hmom
      exact (hg.done d (by rw [hsm]; exact hd) hreq).2

/-- **C114, the store.** A run over several files with a store on a Windows machine, in which every input can be read and gets a name Windows allows, and
nothing goes wrong with writing: when it ends, each input has its module in the store.  The module is made of exactly the inputs with the same debug
id, and the file at its place is its complete text. -/
theorem C114_stored (env : Env) (extra : Option (List Str)) (config : Config) (files : List Str) (ws : Nat → Cache.World)
    (orders : Orders) (out out' : Output.World) (mapping : Option (List Mapping.Generator)) (arch : Str)
    (hlen : files.length ≠ 1) (hprep : prepare env config = .ok (mapping, arch)) (horder : ∀ t, (orders.results t).Perm t) (hplain : PlainStore config.output)
    (hparse : ∀ (i : Nat) f, files[i]? = some f → ∃ o, (parseInput env config mapping arch f (ws i)).1 = .ok o ∧ WinProper o.fileName ∧ WinProper o.debugId)
    (hworks : Works env extra config (threads env extra config files ws orders mapping arch out))
    (dir : Str) (hd : dir ≠ [])
    (hstore : config.output = .store dir ∨ ∃ fo, config.output = .fileAndStore fo dir ∧
      ∀ l o, Threads.MadeOnce (threads env extra config files ws orders mapping arch out) l o →
        ∀ p, InStore dir o.fileName o.debugId p → fo ≠ .path p)
    (h : SeveralFiles env extra config files ws orders out (.ok ()) out')
    (i : Nat) (f : Str) (hi : files[i]? = some f) (oi : ObjectInfo) (hoi : (parseInput env config mapping arch f (ws i)).1 = .ok oi) :
    ∃ l o t p, Threads.MadeOnce (threads env extra config files ws orders mapping arch out) l o ∧
      (∀ j, j ∈ l ↔ ∃ g oj, files[j]? = some g ∧ (parseInput env config mapping arch g (ws j)).1 = .ok oj ∧ oj.debugId = oi.debugId) ∧
      o.debugId = oi.debugId ∧ o.display extra = .ok t ∧ InStore dir o.fileName o.debugId p ∧ out'.files p = some (Utf8.encode t) := by
  obtain ⟨log, hnodup, hmods, hall, hseen⟩ := several_log hlen hprep horder hplain hparse hworks h
  obtain ⟨d, hdlog, hdid⟩ := hall i f oi hi hoi
  have hname : ∀ l o, Threads.MadeOnce (threads env extra config files ws orders mapping arch out) l o → WinProper o.fileName ∧ WinProper o.debugId :=
    fun l o hm => threads_names (names_of hparse) hm.2.2
  have hst : config.output = .store dir ∨ ∃ fo, config.output = .fileAndStore fo dir := by
    rcases hstore with h | ⟨fo, h, _⟩
    · exact .inl h
    · exact .inr ⟨fo, h⟩
  have hpd : PlainDir dir := hplain dir hst hd
  have hstore' : config.output = .store dir ∨ ∃ fo, config.output = .fileAndStore fo dir ∧
      ∀ l o, Threads.MadeOnce (threads env extra config files ws orders mapping arch out) l o → fo ≠ .path (placeOf dir o) := by
    rcases hstore with h | ⟨fo, h, hf⟩
    · exact .inl h
    · exact .inr ⟨fo, h, fun l o hm => hf l o hm _ ((inStore_iff hpd (hname _ _ hm).1 (hname _ _ hm).2).mpr rfl)⟩
  have hm := (hmods d hdlog).1
  have hreq : Requested config.output d.info (.path (placeOf dir d.info)) := .store hst hd ((inStore_iff hpd (hname _ _ hm).1 (hname _ _ hm).2).mpr rfl)
  obtain ⟨t, t1, hroom⟩ := hworks.prints _ _ hm
  obtain ⟨w', h1, h2⟩ := store_complete env.io extra config.output config.checkCfi d.info out hplain (hname _ _ hm).1 (hname _ _ hm).2
    (fun hc => hworks.cfi hc _ _ hm) t1 (hworks.chunks t) hworks.mkdirs (fun p _ => hworks.create p) (fun fo _ => hroom fo)
  have t2 : out'.files (placeOf dir d.info) = some (Utf8.encode t) := by
    have := hseen (.path (placeOf dir d.info)) (fun l o l' o' hm1 hm2 hr1 hr2 =>
      (place_id hd hplain hstore' hname hm hm1 hr1).symm.trans
        (place_id hd hplain hstore' hname hm hm2 hr2)) d hdlog hreq
    rw [h1] at this
    exact holds_seen (w := out) (h2 _ hreq) this
  obtain ⟨m1, m2⟩ := hmods d hdlog
  rw [hdid] at m2
  exact ⟨d.src, d.info, t, _, m1, m2, hdid, t1, (inStore_iff hpd (hname _ _ m1).1 (hname _ _ m1).2).mpr rfl, t2⟩

/-- **C114, inputs with one debug id.** A run over several files that all have the same debug id, in which every input can be read and nothing
goes wrong with writing: when it ends, one module has been made, of all the inputs, and every destination asked for holds its complete
text. -/
theorem C114_one_id (env : Env) (extra : Option (List Str)) (config : Config) (files : List Str) (ws : Nat → Cache.World)
    (orders : Orders) (out out' : Output.World) (mapping : Option (List Mapping.Generator)) (arch : Str)
    (hlen : 1 < files.length) (hprep : prepare env config = .ok (mapping, arch)) (horder : ∀ t, (orders.results t).Perm t) (hplain : PlainStore config.output)
    (hparse : ∀ (i : Nat) f, files[i]? = some f → ∃ o, (parseInput env config mapping arch f (ws i)).1 = .ok o ∧ WinProper o.fileName ∧ WinProper o.debugId)
    (hworks : Works env extra config (threads env extra config files ws orders mapping arch out)) (id : Str)
    (hid : ∀ (i : Nat) f, files[i]? = some f → ∀ o, (parseInput env config mapping arch f (ws i)).1 = .ok o → o.debugId = id)
    (h : SeveralFiles env extra config files ws orders out (.ok ()) out') :
    ∃ l o t, Threads.MadeOnce (threads env extra config files ws orders mapping arch out) l o ∧ (∀ j, j ∈ l ↔ j < files.length) ∧
      o.debugId = id ∧ o.display extra = .ok t ∧ ∀ fo, Requested config.output o fo → Output.Holds out out' fo (Utf8.encode t) := by
  obtain ⟨log, hnodup, hmods, hall, hseen⟩ := several_log (by omega) hprep horder hplain hparse hworks h
  have hid1 : ∀ j o, (threads env extra config files ws orders mapping arch out).parse j = .ok o → o.debugId = id := by
    intro j o ho
    cases hj : files[j]? with
    | none => simp only [threads, hj] at ho; cases ho
    | some g => rw [threads_parse hj] at ho; exact hid j g hj o ho
  have hmade : ∀ {l o}, Threads.Made (threads env extra config files ws orders mapping arch out) l o → o.debugId = id := by
    intro l o hm
    cases hm with
    | one f o ho => exact hid1 f o ho
    | more f l o p c ho _ hm => rw [(merge_ok hm).2]; exact hid1 f o ho
  have hidl : ∀ d ∈ log, d.info.debugId = id := fun d hd => hmade (hmods d hd).1.2.2
  have h0 : files[0]? = some files[0] := List.getElem?_eq_getElem (by omega)
  obtain ⟨o0, p0, _⟩ := hparse 0 files[0] h0
  obtain ⟨d, hd, _⟩ := hall 0 files[0] o0 h0 p0
  obtain ⟨m1, m2⟩ := hmods d hd
  obtain ⟨t, ht, hroom⟩ := hworks.prints _ _ m1
  obtain ⟨w', h1, h2⟩ := store_complete env.io extra config.output config.checkCfi d.info out hplain (threads_names (names_of hparse) m1.2.2).1 (threads_names (names_of hparse) m1.2.2).2
    (fun hc => hworks.cfi hc _ _ m1) ht (hworks.chunks t) hworks.mkdirs (fun p _ => hworks.create p) (fun fo _ => hroom fo)
  refine ⟨d.src, d.info, t, m1, fun j => ?_, hidl d hd, ht, ?_⟩
  · constructor
    · exact fun hj => m1.2.1 j hj
    · intro hj
      obtain ⟨oj, k1, _⟩ := hparse j files[j] (List.getElem?_eq_getElem hj)
      exact (m2 j).mpr ⟨_, oj, List.getElem?_eq_getElem hj, k1, (hid j _ (List.getElem?_eq_getElem hj) oj k1).trans (hidl d hd).symm⟩
  · intro fo hreq
    have := hseen fo (fun l o l' o' a b _ _ => (hmade a.2.2).trans (hmade b.2.2).symm) d hd hreq
    rw [h1] at this
    exact holds_seen (h2 fo hreq) this

/-- **C114, one of several.** With a store, no symbol server and no ids, and nothing going wrong: an input whose debug id no other input has
gets, in a run over several files, the same symbol file as in a run of its own from a state `w` of the disk in which the same is read for it
(such as the state met by the worker, or any other if no symbol server is configured, `C114_no_server`). -/
theorem C114_same_as_alone (env : Env) (extra : Option (List Str)) (config : Config) (files : List Str) (ws : Nat → Cache.World)
    (orders : Orders) (out out' : Output.World) (mapping : Option (List Mapping.Generator)) (arch : Str)
    (hlen : files.length ≠ 1) (hprep : prepare env config = .ok (mapping, arch)) (horder : ∀ t, (orders.results t).Perm t) (hplain : PlainStore config.output)
    (hs : config.symbolServer = none) (hdi : config.debugId = none) (hci : config.codeId = none)
    (hparse : ∀ (i : Nat) f, files[i]? = some f → ∃ o, (parseInput env config mapping arch f (ws i)).1 = .ok o ∧ WinProper o.fileName ∧ WinProper o.debugId)
    (hworks : Works env extra config (threads env extra config files ws orders mapping arch out))
    (dir : Str) (hd : dir ≠ []) (hstore : config.output = .store dir)
    (h : SeveralFiles env extra config files ws orders out (.ok ()) out')
    (i : Nat) (f : Str) (hi : files[i]? = some f)
    (hone : ∀ j g oj oi, files[j]? = some g → (parseInput env config mapping arch g (ws j)).1 = .ok oj →
      (parseInput env config mapping arch f (ws i)).1 = .ok oi → oj.debugId = oi.debugId → j = i)
    (w : Cache.World) (hw : (parseInput env config mapping arch f w).1 = (parseInput env config mapping arch f (ws i)).1) :
    ∃ o t p, (readSingle env config f w).1 = .ok o ∧ o.display extra = .ok t ∧ InStore dir o.fileName o.debugId p ∧
      (singleFile env extra config f w out).1 = .ok () ∧
      (singleFile env extra config f w out).2.2.files p = some (Utf8.encode t) ∧ out'.files p = some (Utf8.encode t) := by
  obtain ⟨oi, hoi, _⟩ := hparse i f hi
  obtain ⟨l, o, t, p, m1, m3, m4, m5, mp, m6⟩ := C114_stored env extra config files ws orders out out' mapping arch hlen hprep horder hplain
    hparse hworks dir hd (.inl hstore) h i f hi oi hoi
  have hall : ∀ j ∈ l, j = i := by
    intro j hj
    obtain ⟨g, oj, h1, h2, h3⟩ := (m3 j).mp hj
    exact hone j g oj oi h1 h2 hoi h3
  have ho : o = oi := by
    obtain ⟨m2, _, m1⟩ := m1
    cases m1 with
    | one j o ho =>
      have := hall j (by simp)
      subst this
      rw [threads_parse hi, hoi] at ho; cases ho; rfl
    | more j l o p c ho hm hc =>
      exfalso
      have hj := hall j (by simp)
      subst hj
      have hl : ∀ {l p}, Threads.Made (threads env extra config files ws orders mapping arch out) l p → l ≠ [] := by
        intro l p h; cases h <;> simp
      obtain ⟨k, hk⟩ := List.exists_mem_of_ne_nil _ (hl hm)
      have := hall k (by simp [hk])
      subst this
      exact (List.nodup_cons.mp m2).1 hk
  subst ho
  have hread : (readSingle env config f w).1 = .ok o := by
    rw [readSingle_parse env config f w hs hdi hci hprep, hw]; exact hoi
  obtain ⟨s1, s2⟩ := C113_complete_partial env extra config f w out hread (fun hc => hworks.cfi hc _ _ m1)
    hplain (threads_names (names_of hparse) m1.2.2).1 (threads_names (names_of hparse) m1.2.2).2 m5 (hworks.chunks t) hworks.mkdirs
    hworks.create (by
      obtain ⟨t', h1, h2⟩ := hworks.prints _ _ m1
      rw [m5] at h1; cases h1; exact h2)
  exact ⟨o, t, p, hread, m5, mp, s1, s2 _ (.store (.inl hstore) hd mp), m6⟩

/-- **C114, at every moment** of the work of the threads, and so also when the process is killed or crashes: a file that no module is to be written to is
untouched, and a file at a place of the store is untouched or has received a beginning of the symbol file of a module with the debug id of the place. -/
theorem C114_moments (env : Env) (extra : Option (List Str)) (config : Config) (files : List Str) (ws : Nat → Cache.World)
    (orders : Orders) (out : Output.World) (mapping : Option (List Mapping.Generator)) (arch : Str)
    (horder : ∀ t, (orders.results t).Perm t) (hplain : PlainStore config.output)
    (hnames : ∀ (i : Nat) f o, files[i]? = some f → (parseInput env config mapping arch f (ws i)).1 = .ok o → WinProper o.fileName ∧ WinProper o.debugId)
    (hparts : ∀ t, (env.io.chunks t).flatten = Utf8.encode t) {m : Threads.Moment}
    (h : Threads.Moments (threads env extra config files ws orders mapping arch out) (callsOf env.io extra config.output config.checkCfi) out m) :
    (∀ fo, (∀ l o, Threads.MadeOnce (threads env extra config files ws orders mapping arch out) l o → ¬ Requested config.output o fo) →
      Output.Untouched out m.out fo) ∧
    ∀ dir, dir ≠ [] → (config.output = .store dir ∨ ∃ fo, config.output = .fileAndStore fo dir ∧
        ∀ l o, Threads.MadeOnce (threads env extra config files ws orders mapping arch out) l o → ∀ p, InStore dir o.fileName o.debugId p → fo ≠ .path p) →
      ∀ l0 o0 p, Threads.MadeOnce (threads env extra config files ws orders mapping arch out) l0 o0 → InStore dir o0.fileName o0.debugId p →
        m.out.files p = out.files p ∨ ∃ l o part, Threads.MadeOnce (threads env extra config files ws orders mapping arch out) l o ∧
          o.debugId = o0.debugId ∧ InStore dir o.fileName o.debugId p ∧ m.out.files p = some part ∧
          (part = [] ∨ ∃ t, o.display extra = .ok t ∧ part <+: Utf8.encode t) := by
  have hgo : ∀ fo, (∀ l o l' o', Threads.MadeOnce (threads env extra config files ws orders mapping arch out) l o →
      Threads.MadeOnce (threads env extra config files ws orders mapping arch out) l' o' →
      Requested config.output o fo → Requested config.output o' fo → o.debugId = o'.debugId) →
      Output.Untouched out m.out fo ∨ ∃ l o, Threads.MadeOnce (threads env extra config files ws orders mapping arch out) l o ∧
        Requested config.output o fo ∧ Output.Begun extra out m.out o fo := by
    intro fo honly
    have hg := Threads.moments_going_of (env := threads env extra config files ws orders mapping arch out) (req := Requested config.output)
      (part := fun o fo => Output.Partway extra o fo (out.seen fo)) (fin := fun o fo => (store env.io extra config.output config.checkCfi o out).2.seen fo)
      horder (fun _ _ hm _ ht _ hf => todoOf_dest hplain (threads_names hnames hm.2.2).1 (threads_names hnames hm.2.2).2 ht hf)
      (fun o => ⟨along_todoOf hparts fo _, (todoOf_store env.io extra config.output config.checkCfi o fo out).2⟩) honly h
    have hinv := Threads.reach_inv (env := threads env extra config files ws orders mapping arch out) horder hg.reach
    by_cases hq : ∃ d, m.s.Busy d ∧ Requested config.output d.info fo
    · obtain ⟨d, hd, hr⟩ := hq
      have hmade := Threads.madeOnce hinv (Threads.busy_out hd)
      have hpart : Output.Partway extra d.info fo (out.seen fo) (m.out.seen fo) := by
        rcases hd with hd | ⟨i, hd⟩
        · exact (hg.done d hd hr).1
        · exact (hg.going i d hd hr).1.now
      rcases Output.partway_iff.mp hpart with h2 | h2
      · exact .inl h2
      · exact .inr ⟨_, d.info, hmade, hr, h2⟩
    · exact .inl (Output.untouched_iff.mpr (hg.quiet fun d hd hr => hq ⟨d, hd, hr⟩))
  refine ⟨fun fo hno => ?_, ?_⟩
  · rcases hgo fo (fun l o l' o' a _ c _ => absurd c (hno l o a)) with h | ⟨l, o, a, b, _⟩
    · exact h
    · exact absurd b (hno l o a)
  · intro dir hd hstore l0 o0 p hm0 hp
    have hname : ∀ l o, Threads.MadeOnce (threads env extra config files ws orders mapping arch out) l o → WinProper o.fileName ∧ WinProper o.debugId :=
      fun l o hm => threads_names hnames hm.2.2
    have hst : config.output = .store dir ∨ ∃ fo, config.output = .fileAndStore fo dir := by
      rcases hstore with h | ⟨fo, h, _⟩
      · exact .inl h
      · exact .inr ⟨fo, h⟩
    have hpd : PlainDir dir := hplain dir hst hd
    have hin : ∀ {l o p}, Threads.MadeOnce (threads env extra config files ws orders mapping arch out) l o →
        (InStore dir o.fileName o.debugId p ↔ p = placeOf dir o) := fun hm => inStore_iff hpd (hname _ _ hm).1 (hname _ _ hm).2
    have hstore' : config.output = .store dir ∨ ∃ fo, config.output = .fileAndStore fo dir ∧
        ∀ l o, Threads.MadeOnce (threads env extra config files ws orders mapping arch out) l o → fo ≠ .path (placeOf dir o) := by
      rcases hstore with h | ⟨fo, h, hf⟩
      · exact .inl h
      · exact .inr ⟨fo, h, fun l o hm => hf l o hm _ ((hin hm).mpr rfl)⟩
    rw [hin hm0] at hp
    subst hp
    rcases hgo (.path (placeOf dir o0)) (fun l o l' o' a b c d =>
      (place_id hd hplain hstore' hname hm0 a c).symm.trans (place_id hd hplain hstore' hname hm0 b d)) with h | ⟨l, o, a, b, part, h1, h2⟩
    · exact .inl h
    · refine .inr ⟨l, o, part, a, (place_id hd hplain hstore' hname hm0 a b).symm, ?_, h1, h2⟩
      cases b with
      | store hd' hne hp =>
        have : ∀ d', (config.output = .store d' ∨ ∃ fo, config.output = .fileAndStore fo d') → d' = dir := by
          rintro d' (e | ⟨fo, e⟩) <;> rcases hst with e' | ⟨fo', e'⟩ <;> rw [e] at e' <;> cases e' <;> rfl
        rw [this _ hd'] at hp
        exact hp
      | file hf =>
        exfalso
        rcases hstore' with e | ⟨fo, e, hfo⟩
        · rcases hf with hf | ⟨d', hf⟩ <;> rw [e] at hf <;> cases hf
        · rcases hf with hf | ⟨d', hf⟩ <;> rw [e] at hf <;> cases hf
          exact hfo _ _ hm0 rfl

/-- What is on the disk stays there. -/
theorem Meanwhile.keeps {env : Env} {w w' : Cache.World} (h : Meanwhile env w w') {q : Str} {n : Node} (hq : w.disk q = some n) :
    w'.disk q = some n := by
  induction h with
  | start => exact hq
  | asked w' log h ih => exact ih
  | cached w' servers s dir name buf pe data h hs hm hc hn hpe hf ih =>
    simp only [Disk.write]
    rw [if_neg]
    · exact ih
    · rintro rfl; rw [hq] at hf; cases hf

/-- What is new on the disk is a file. -/
theorem Meanwhile.news {env : Env} {w w' : Cache.World} (h : Meanwhile env w w') {q : Str} {n : Node} (hq : w'.disk q = some n) :
    w.disk q = some n ∨ ∃ raw, n = .file raw true := by
  induction h with
  | start => exact .inl hq
  | asked w' log h ih => exact ih hq
  | cached w' servers s dir name buf pe data h hs hm hc hn hpe hf ih =>
    simp only [Disk.write] at hq
    split at hq
    · cases hq; exact .inr ⟨_, rfl⟩
    · exact ih hq

theorem Meanwhile.sane {env : Env} {w w' : Cache.World} (h : Meanwhile env w w') (hs : Sane env w.disk) : Sane env w'.disk where
  dirs := by
    intro q es hq
    rcases h.news hq with h | ⟨raw, h⟩
    · exact hs.dirs q es h
    · cases h
  room := hs.room
  arrivals := hs.arrivals
  cwd := hs.cwd
  home := hs.home

theorem Meanwhile.trans {env : Env} {w w' w'' : Cache.World} (h : Meanwhile env w w') (h' : Meanwhile env w' w'') : Meanwhile env w w'' := by
  induction h' with
  | start => exact h
  | asked w'' log _ ih => exact .asked _ log ih
  | cached w'' servers s dir name buf pe data _ hs hm hc hn hpe hf ih =>
    refine .cached _ servers s dir name buf pe data ih hs hm hc hn hpe ?_
    cases hq : w.disk (cachePath dir (getBase name) pe.debugId name) with
    | none => rfl
    | some n => rw [h.keeps hq] at hf; cases hf

theorem copyInCache_disk (net : Cache.Net) (path : Option Str) (data : Bytes) (d : Disk) :
    (copyInCache net path data d).2 = d ∨
      ∃ p b, path = some p ∧ (copyInCache net path data d).2 = d.write p b ∧ b = data.take (net.room p) ∧
        ¬ (data = [] ∨ Cache.notFound <+: data) := by
  unfold copyInCache
  split
  · exact .inl rfl
  · rename_i hd
    split
    · exact .inl rfl
    · rename_i p
      simp only
      split
      · exact .inl rfl
      · split
        · exact .inl rfl
        · refine .inr ⟨p, _, rfl, rfl, ?_, ?_⟩
          · have := (Output.dump_spec (net.room p) net.capacity [data]).1
            simpa using this
          · simpa [List.isEmpty_iff, List.isPrefixOf_iff_prefix] using hd

/-- What a search writes: nothing, or one file at a path of the searched file in one of the caches, all of which were free. -/
theorem searchFile_disk (net : Cache.Net) (name id : Str) (servers : Option (List Cache.Server)) (w : Cache.World)
    (har : ∀ js, ∀ j ∈ net.arrivals js, j ∈ js) :
    (searchFile net name id servers w).2.disk = w.disk ∨
      ∃ ss s c raw, servers = some ss ∧ s ∈ ss ∧ s.cache = some c ∧
        (∀ s ∈ ss, ∀ c, s.cache = some c → w.disk (cachePath c (getBase name) id name) = none) ∧
        (searchFile net name id servers w).2.disk = w.disk.write (cachePath c (getBase name) id name) raw := by
  unfold searchFile
  split
  · exact .inl rfl
  · split
    · exact .inl rfl
    · rename_i ss
      simp only
      cases hsc : searchInCache w.disk ss id (getBase name) name with
      | some p => exact .inl rfl
      | none =>
        simp only
        cases hj : getJobs net id (getBase name) name ss with
        | err m => exact .inl rfl
        | panic => exact .inl rfl
        | ok jobs =>
          simp only
          have key : (fetchData net jobs w).2.disk = w.disk ∨ ∃ s c raw, s ∈ ss ∧ s.cache = some c ∧
              (fetchData net jobs w).2.disk = w.disk.write (cachePath c (getBase name) id name) raw := by
            unfold fetchData
            simp only
            cases hck : Cache.checkData net jobs with
            | none => exact .inl rfl
            | some job =>
              simp only
              have hmem : job ∈ jobs := har _ _ (List.mem_of_head? hck)
              cases hg : net.get job.url with
              | none => exact .inl rfl
              | some sb =>
                obtain ⟨st, buf⟩ := sb
                simp only
                rcases copyInCache_disk net job.cache buf w.disk with h | ⟨p, b, hp, hb, _⟩
                · exact .inl h
                · obtain ⟨s, hs, c, hc, rfl⟩ := getJobs_cache hj hmem hp
                  exact .inr ⟨s, c, b, hs, hc, hb⟩
          rcases key with h | ⟨s, c, raw, hs, hc, hd⟩
          · left
            split
            · split <;> exact h
            · exact h
            · exact h
            · exact h
          · refine .inr ⟨ss, s, c, raw, rfl, hs, hc, searchInCache_none.mp hsc, ?_⟩
            split
            · split <;> exact hd
            · exact hd
            · exact hd
            · exact hd

/-- Reading an input keeps to what `Meanwhile` says of the workers. -/
theorem parse_meanwhile {env : Env} {w : Cache.World} (hs : Sane env w.disk) (config : Config) (mapping : Option (List Mapping.Generator))
    (arch f : Str) : Meanwhile env w (parseInput env config mapping arch f w).2 := by
  have hsearch : ∀ (name : Str) (buf : Bytes) (pe : WinUtils.Pe) (servers : Option (List Cache.Server)), (∃ p, WinPath.fileName p = some name) →
      parsePe env.parsers buf = some pe → getSymServers env.home w.disk none = .ok servers →
      Meanwhile env w (searchFile env.net name pe.debugId servers w).2 := by
    intro name buf pe servers hn hpe hsv
    generalize hr : (searchFile env.net name pe.debugId servers w).2 = r
    have hd := searchFile_disk env.net name pe.debugId servers w hs.arrivals
    rw [hr] at hd
    obtain ⟨disk, log⟩ := r
    simp only at hd
    rcases hd with rfl | ⟨ss, s, c, raw, rfl, hss, hc, hfree, rfl⟩
    · exact .asked w log .start
    · have := Meanwhile.cached w ss s c name buf pe raw .start hsv hss hc hn hpe (hfree s hss c hc)
      exact .asked _ log this
  unfold parseInput
  split
  · split
    · rename_i filename hf _ buf hbuf
      unfold getObjectInfo
      split
      · exact .start
      · exact .start
      · have hr : Meanwhile env w (getPePdbObjectInfo env buf f filename mapping none config.emitInlines w).2 := by
          unfold getPePdbObjectInfo
          split
          · rename_i servers hsv
            have hb : Meanwhile env w (getPePdbBuf env.net (parsePe env.parsers) env.cwd f buf servers w).2 := by
              unfold getPePdbBuf
              split
              · exact .start
              · rename_i pe hpe
                split
                · exact .start
                · split
                  · rename_i pdb pdbName hos
                    split
                    · exact .start
                    · split
                      · exact .start
                      · refine hsearch pdbName buf pe servers ?_ hpe hsv
                        unfold osSpecificTryToFindPdb at hos
                        split at hos
                        · rename_i name hname
                          have : name = pdbName := by
                            split at hos
                            · obtain ⟨x, e⟩ := map_ok hos; cases e
                            · obtain ⟨x, e⟩ := map_ok hos; cases e; rfl
                          exact ⟨_, this ▸ hname⟩
                        · cases hos; rename_i h; exact absurd rfl h
                  · exact .start
                  · exact .start
            simp only
            split
            · split <;> exact hb
            · exact hb
            · exact hb
            · exact hb
          · exact .start
          · exact .start
        simp only
        split <;> exact hr
      · exact .start
      · exact .start
    · exact .start
    · exact .start
  · exact .start
  · exact .start

/-- Without a configured symbol server the workers write nothing while they read the inputs. -/
theorem Meanwhile.same_disk {env : Env} {w w' : Cache.World} (h : Meanwhile env w w')
    (hno : ∀ servers, getSymServers env.home w.disk none ≠ .ok (some servers)) : w'.disk = w.disk := by
  induction h with
  | start => rfl
  | asked w' log h ih => exact ih
  | cached w' servers s dir name buf pe data h hs hm hc hn hpe hf ih => rw [ih] at hs; exact absurd hs (hno _)

/-- The result of a search does not depend on the requests made before. -/
theorem search_log (net : Cache.Net) (name id : Str) (servers : Option (List Cache.Server)) (d : Disk) (l l' : List Cache.Request) :
    (searchFile net name id servers ⟨d, l⟩).1 = (searchFile net name id servers ⟨d, l'⟩).1 := by
  have hf : ∀ jobs, (fetchData net jobs ⟨d, l⟩).1 = (fetchData net jobs ⟨d, l'⟩).1 := by
    intro jobs
    unfold fetchData
    simp only
    split
    · rfl
    · split <;> rfl
  unfold searchFile
  split
  · rfl
  · split
    · rfl
    · simp only
      split
      · rfl
      · split
        · simp only [hf]
          split
          · split <;> rfl
          · rfl
          · rfl
          · rfl
        · rfl
        · rfl

/-- What is read for an input depends on the disk only. -/
theorem parse_log (env : Env) (config : Config) (mapping : Option (List Mapping.Generator)) (arch f : Str) (d : Disk) (l l' : List Cache.Request) :
    (parseInput env config mapping arch f ⟨d, l⟩).1 = (parseInput env config mapping arch f ⟨d, l'⟩).1 := by
  have hb : ∀ path buf servers, (getPePdbBuf env.net (parsePe env.parsers) env.cwd path buf servers ⟨d, l⟩).1 =
      (getPePdbBuf env.net (parsePe env.parsers) env.cwd path buf servers ⟨d, l'⟩).1 := by
    intro path buf servers
    unfold getPePdbBuf
    split
    · rfl
    · split
      · rfl
      · simp only
        split
        · split
          · rfl
          · split
            · rfl
            · simp only [search_log env.net _ _ _ d l l']
        · rfl
        · rfl
  unfold parseInput
  split
  · simp only
    split
    · unfold getObjectInfo
      split
      · rfl
      · rfl
      · have : ∀ path buf filename, (getPePdbObjectInfo env buf path filename mapping none config.emitInlines ⟨d, l⟩).1 =
            (getPePdbObjectInfo env buf path filename mapping none config.emitInlines ⟨d, l'⟩).1 := by
          intro path buf filename
          unfold getPePdbObjectInfo
          simp only
          split
          · simp only [hb _ _ _]
            split
            · split <;> rfl
            · rfl
            · rfl
            · rfl
          · rfl
          · rfl
        simp only [this]
        split <;> rfl
      · rfl
      · rfl
    · rfl
    · rfl
  · rfl
  · rfl

/-- Without a configured symbol server, what is read for an input is what would be read for it at the start. -/
theorem parse_start {env : Env} {w w' : Cache.World} (h : Meanwhile env w w')
    (hno : ∀ servers, getSymServers env.home w.disk none ≠ .ok (some servers)) (config : Config)
    (mapping : Option (List Mapping.Generator)) (arch f : Str) :
    (parseInput env config mapping arch f w).1 = (parseInput env config mapping arch f w').1 := by
  have := h.same_disk hno
  obtain ⟨d, l⟩ := w
  obtain ⟨d', l'⟩ := w'
  cases this
  exact parse_log env config mapping arch f _ l l'

/-- **C114, no symbol server configured.** With a store, no ids, and nothing going wrong: an input whose debug id no other input has gets, in a
run over several files, the same symbol file as in a run of its own. -/
theorem C114_no_server (env : Env) (extra : Option (List Str)) (config : Config) (files : List Str) (w : Cache.World)
    (orders : Orders) (out : Output.World) (mapping : Option (List Mapping.Generator)) (arch : Str)
    (hlen : files.length ≠ 1) (hprep : prepare env config = .ok (mapping, arch)) (horder : ∀ t, (orders.results t).Perm t) (hplain : PlainStore config.output)
    (hs : config.symbolServer = none) (hdi : config.debugId = none) (hci : config.codeId = none)
    (hno : ∀ servers, getSymServers env.home w.disk none ≠ .ok (some servers))
    (hparse : ∀ f ∈ files, ∃ o, (parseInput env config mapping arch f w).1 = .ok o ∧ WinProper o.fileName ∧ WinProper o.debugId)
    (hworks : Works env extra config (threads env extra config files (fun _ => w) orders mapping arch out))
    (dir : Str) (hd : dir ≠ []) (hstore : config.output = .store dir)
    (r : Res Unit) (out' : Output.World) (h : Acts env extra files w orders out (.dump config) r out') (hr : r = .ok ())
    (i : Nat) (f : Str) (hi : files[i]? = some f)
    (hone : ∀ j g oj oi, files[j]? = some g → (parseInput env config mapping arch g w).1 = .ok oj →
      (parseInput env config mapping arch f w).1 = .ok oi → oj.debugId = oi.debugId → j = i) :
    ∃ o t p, (readSingle env config f w).1 = .ok o ∧ o.display extra = .ok t ∧ InStore dir o.fileName o.debugId p ∧
      (singleFile env extra config f w out).1 = .ok () ∧
      (singleFile env extra config f w out).2.2.files p = some (Utf8.encode t) ∧ out'.files p = some (Utf8.encode t) := by
  cases h with
  | single _ g hg => rw [hg] at hlen; exact absurd rfl hlen
  | several _ ws r out' hlen hw h =>
    subst hr
    have hsame : ∀ i f, (parseInput env config mapping arch f w).1 = (parseInput env config mapping arch f (ws i)).1 :=
      fun i f => parse_start (hw i) hno config mapping arch f
    have hT : threads env extra config files ws orders mapping arch out = threads env extra config files (fun _ => w) orders mapping arch out := by
      unfold threads
      congr 1
      funext i
      split
      · exact (hsame i _).symm
      · rfl
    refine C114_same_as_alone env extra config files ws orders out out' mapping arch hlen hprep horder hplain hs hdi hci ?_ (hT ▸ hworks) dir hd hstore h
      i f hi ?_ w (hsame i f)
    · intro i f hi
      rw [← hsame]
      exact hparse f (List.mem_of_getElem? hi)
    · intro j g oj oi hj h1 h2
      rw [← hsame] at h1 h2
      exact hone j g oj oi hj h1 h2

end WinHost
end DumpSyms
