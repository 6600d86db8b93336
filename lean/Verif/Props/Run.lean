import Verif.Model.Run
import Verif.Props.Dumper
import Verif.Props.Main
import Verif.Props.ThreadsSamples
import Verif.Proof.Moments
/-!
# C68–C71: the whole program
-/
namespace DumpSyms
namespace Run
open Dumper

/-! ## Writing several modules -/

/-- Whether writing a module succeeds does not depend on what has been written before. -/
theorem store_result (io : Output.IoEnv) (extra : Option (List Str)) (out : Output.Out) (checkCfi : Bool) (o : ObjectInfo)
    (w w' : Output.World) : (Output.store io extra out checkCfi o w).1 = (Output.store io extra out checkCfi o w').1 := by
  have hto : ∀ text fo v v', (Output.writeTo io text fo v).1 = (Output.writeTo io text fo v').1 := by
    intro text fo v v'
    unfold Output.writeTo
    split
    · cases text <;> rfl
    · rfl
  have hst : ∀ text p v v', (Output.writeStore io text p v).1 = (Output.writeStore io text p v').1 := by
    intro text p v v'
    unfold Output.writeStore
    cases Path.parent p with
    | none => rfl
    | some d =>
      simp only
      split
      · exact hto _ _ _ _
      · rfl
  unfold Output.store
  split
  · rfl
  · simp only
    cases (Output.destinations out o).2 with
    | none =>
      simp only
      cases (Output.destinations out o).1 with
      | none => rfl
      | some fo => exact hto _ _ _ _
    | some p =>
      simp only
      rw [hst (o.display extra) p w w']
      cases h : (Output.writeStore io (o.display extra) p w').1 with
      | ok u =>
        simp only
        cases (Output.destinations out o).1 with
        | none => rfl
        | some fo => exact hto _ _ _ _
      | err m => simp only; rw [hst (o.display extra) p w w', h]
      | panic => simp only; rw [hst (o.display extra) p w w', h]

/-- The last two components of a path. -/
def lastTwo (p : Str) : Str × Str :=
  let r := p.reverse
  (((r.dropWhile (· != '/')).tail.takeWhile (· != '/')).reverse, (r.takeWhile (· != '/')).reverse)

theorem lastTwo_eq (pre id f : Str) (hp : pre = [] ∨ pre.getLast? = some '/') (hid : '/' ∉ id) (hf : '/' ∉ f) :
    lastTwo (pre ++ id ++ '/' :: f) = (id, f) := by
  have hall : ∀ s : Str, '/' ∉ s → s.reverse.takeWhile (· != '/') = s.reverse ∧ s.reverse.dropWhile (· != '/') = [] := by
    intro s hs
    have : ∀ x ∈ s.reverse, (x != '/') = true := by
      intro x hx
      have := List.mem_reverse.mp hx
      simp only [bne_iff_ne, ne_eq]
      rintro rfl; exact hs this
    clear hs
    generalize s.reverse = r at this
    induction r with
    | nil => exact ⟨rfl, rfl⟩
    | cons x r ih =>
      have hx := this x (by simp)
      obtain ⟨i1, i2⟩ := ih fun y hy => this y (by simp [hy])
      simp only [List.takeWhile_cons, List.dropWhile_cons, hx, if_true, i1, i2, and_self]
  have hf' := hall f hf
  have hid' := hall id hid
  unfold lastTwo
  have hrev : (pre ++ id ++ '/' :: f).reverse = f.reverse ++ '/' :: (id.reverse ++ pre.reverse) := by simp
  simp only [hrev]
  have h1 : (f.reverse ++ '/' :: (id.reverse ++ pre.reverse)).takeWhile (· != '/') = f.reverse := by
    rw [List.takeWhile_append]
    simp [hf'.1]
  have h2 : (f.reverse ++ '/' :: (id.reverse ++ pre.reverse)).dropWhile (· != '/') = '/' :: (id.reverse ++ pre.reverse) := by
    rw [List.dropWhile_append]
    simp [hf'.2]
  have h3 : (id.reverse ++ pre.reverse).takeWhile (· != '/') = id.reverse := by
    rw [List.takeWhile_append]
    rcases hp with rfl | hp
    · simp [hid'.1]
    · have : pre.reverse.head? = some '/' := by rw [List.head?_reverse]; exact hp
      cases hpr : pre.reverse with
      | nil => rw [hpr] at this; cases this
      | cons x xs => rw [hpr] at this; cases this; simp [hid'.1]
  rw [h1, h2, List.tail_cons, h3]
  simp

/-- Modules with different debug ids have different places in the store. -/
theorem store_path_id {dir n1 n2 id1 id2 : Str} (h1 : '/' ∉ n1) (h2 : '/' ∉ n2) (hi1 : ProperComp id1) (hi2 : ProperComp id2)
    (h : Path.push dir (Utils.getPathForSym n1 id1) = Path.push dir (Utils.getPathForSym n2 id2)) : id1 = id2 := by
  have key : ∀ n id, '/' ∉ n → ProperComp id → (lastTwo (Path.push dir (Utils.getPathForSym n id))).1 = id := by
    intro n id hn hid
    obtain ⟨e, hb⟩ := getPathForSym_shape n id hn hid
    have hf := storeFile_proper (symFileName_spec n) hn
    have hpre : ∃ pre, (pre = [] ∨ pre.getLast? = some '/') ∧
        Path.push dir (Utils.getPathForSym n id) = pre ++ id ++ '/' :: Utils.symFileName n := by
      have hsplit : ∃ q, (q = [] ∨ q.getLast? = some '/') ∧ Utils.getPathForSym n id = q ++ id ++ '/' :: Utils.symFileName n := by
        rw [e]
        by_cases h0 : n = []
        · exact ⟨[], .inl rfl, by simp [h0, joinSlash]⟩
        · refine ⟨Utils.getBase n ++ ['/'], .inr (by simp), ?_⟩
          simp [h0, joinSlash]
      obtain ⟨q, hq, he⟩ := hsplit
      unfold Path.push
      split
      · exact ⟨q, hq, he⟩
      · split
        · rename_i hl
          refine ⟨dir ++ q, ?_, by rw [he]; simp⟩
          rcases hq with rfl | hq
          · rcases hl with hl | hl
            · left; simpa using hl
            · right; simpa using hl
          · right
            cases q with
            | nil => cases hq
            | cons x xs => rw [List.getLast?_append, hq]; rfl
        · refine ⟨dir ++ '/' :: q, ?_, by rw [he]; simp⟩
          right
          rcases hq with rfl | hq
          · simp
          · rw [List.getLast?_append, List.getLast?_cons, hq]; rfl
    obtain ⟨pre, hp, he⟩ := hpre
    rw [he, lastTwo_eq pre id _ hp hid.2.1 hf.2.1]
  rw [← key n1 id1 h1 hi1, h, key n2 id2 h2 hi2]

/-- Nothing goes wrong with writing the modules that can be made of the inputs. -/
structure Works (env : Env) (extra : Option (List Str)) (config : Config) (T : Threads.Env) : Prop where
  mkdirs : ∀ d, env.io.mkdirs d = true
  create : ∀ p, env.io.create p = true
  chunks : ∀ t, (env.io.chunks t).flatten = Utf8.encode t
  prints : ∀ l o, Threads.MadeOnce T l o → ∃ t, o.display extra = .ok t ∧ ∀ fo, (Utf8.encode t).length ≤ env.io.room fo
  cfi : config.checkCfi = true → ∀ l o, Threads.MadeOnce T l o → o.stack ≠ []

/-- The place of a module in the store. -/
def placeOf (dir : Str) (o : ObjectInfo) : Str := Path.push dir (Utils.getPathForSym o.fileName o.debugId)

/-- What the input number `i` of a run over several files is read as. -/
theorem threads_parse {env : Env} {extra : Option (List Str)} {config : Config} {files : List Str} {ws : Nat → Cache.World} {orders : Orders}
    {mapping : Option (List Mapping.Generator)} {arch : Str} {out : Output.World} {i : Nat} {f : Str} (h : files[i]? = some f) :
    (threads env extra config files ws orders mapping arch out).parse i = (parseInput env config mapping arch f (ws i)).1 := by
  simp only [threads, h]

theorem merge_fileName {order : List (Str × Nat) → List (Str × Nat)} {l r c : ObjectInfo} (h : ObjectInfo.merge order l r = .ok c) :
    c.fileName = l.fileName ∨ c.fileName = r.fileName := by
  have hinto : ∀ l r : ObjectInfo, ObjectInfo.mergeInto order l r = .ok c → c.fileName = l.fileName ∨ c.fileName = r.fileName := by
    intro l r h
    unfold ObjectInfo.mergeInto at h
    cases h1 : l.files.merge order r.files with
    | err m => rw [h1] at h; cases h
    | panic => rw [h1] at h; cases h
    | ok x =>
      rw [h1] at h
      simp only [Res.bind_ok] at h
      cases h2 : ObjectInfo.mergeSyms x.2 (InlineOrigins.merge l.inlineOrigins r.inlineOrigins).2 r.symbols l.symbols with
      | err m => rw [h2] at h; cases h
      | panic => rw [h2] at h; cases h
      | ok y =>
        rw [h2] at h
        simp only [Res.bind_ok] at h
        cases h
        simp only
        split
        · exact .inr rfl
        · exact .inl rfl
  unfold ObjectInfo.merge at h
  split at h
  · cases h
  · have := hinto _ _ h
    unfold ObjectInfo.bySize at this
    split at this
    · exact this
    · exact this.symm

/-- The name of a module has no `/`. -/
theorem made_no_slash {env : Env} {extra : Option (List Str)} {config : Config} {files : List Str} {ws : Nat → Cache.World} {orders : Orders}
    {mapping : Option (List Mapping.Generator)} {arch : Str} {out : Output.World} {l : List Nat} {o : ObjectInfo}
    (h : Threads.Made (threads env extra config files ws orders mapping arch out) l o) : '/' ∉ o.fileName := by
  have hone : ∀ i o, (threads env extra config files ws orders mapping arch out).parse i = .ok o → '/' ∉ o.fileName := by
    intro i o hi
    simp only [threads] at hi
    split at hi
    · unfold parseInput at hi
      split at hi
      · split at hi
        · exact C63_no_slash hi
        · cases hi
        · cases hi
      · cases hi
      · cases hi
    · cases hi
  induction h with
  | one f o ho => exact hone f o ho
  | more f l o p c ho _ hm ih =>
    rcases merge_fileName hm with e | e
    · rw [e]; exact hone f o ho
    · rw [e]; exact ih

/-- A place in the store is asked for by modules of one debug id only. -/
theorem place_id {config : Config} {T : Threads.Env} {dir : Str} (hd : dir ≠ [])
    (hstore : config.output = .store dir ∨ ∃ fo, config.output = .fileAndStore fo dir ∧
      ∀ l o, Threads.MadeOnce T l o → fo ≠ .path (placeOf dir o))
    (hname : ∀ l o, Threads.MadeOnce T l o → '/' ∉ o.fileName) (hid : ∀ l o, Threads.MadeOnce T l o → ProperComp o.debugId)
    {l : List Nat} {o : ObjectInfo} (hm : Threads.MadeOnce T l o) {l' : List Nat} {o' : ObjectInfo} (hm' : Threads.MadeOnce T l' o')
    (hreq : Output.Requested config.output o' (.path (placeOf dir o))) : o.debugId = o'.debugId := by
  have hpath : placeOf dir o = placeOf dir o' := by
    rw [Output.requested_iff (hname _ _ hm')] at hreq
    rcases hstore with h | ⟨fo, h, hfo⟩
    · rw [h] at hreq
      simp only [Output.destinations, Output.symStorePath_of_ne hd, reduceCtorEq, Option.some.injEq, Output.FileOutput.path.injEq,
        false_or, exists_eq_left'] at hreq
      exact hreq
    · rw [h] at hreq
      simp only [Output.destinations, Output.symStorePath_of_ne hd, Option.some.injEq, Output.FileOutput.path.injEq,
        exists_eq_left'] at hreq
      rcases hreq with hreq | hreq
      · exact absurd hreq (hfo _ _ hm)
      · exact hreq
  exact store_path_id (hname _ _ hm) (hname _ _ hm') (hid _ _ hm) (hid _ _ hm') hpath

theorem holds_seen {w w1 w2 : Output.World} {fo : Output.FileOutput} {b : Output.Bytes} (h : Output.Holds w w1 fo b) (hs : w2.seen fo = w1.seen fo) :
    Output.Holds w w2 fo b := by
  cases fo <;> simp_all [Output.Holds, Output.World.seen]

/-- What a run over several files has written when it ends, if every input can be read and nothing goes wrong with writing. -/
theorem several_log {env : Env} {extra : Option (List Str)} {config : Config} {files : List Str} {ws : Nat → Cache.World}
    {orders : Orders} {out out' : Output.World} {mapping : Option (List Mapping.Generator)} {arch : Str}
    (hlen : files.length ≠ 1) (hprep : prepare env config = .ok (mapping, arch)) (horder : ∀ t, (orders.results t).Perm t)
    (hparse : ∀ (i : Nat) f, files[i]? = some f → ∃ o, (parseInput env config mapping arch f (ws i)).1 = .ok o ∧ ProperComp o.debugId)
    (hworks : Works env extra config (threads env extra config files ws orders mapping arch out))
    (h : SeveralFiles env extra config files ws orders out (.ok ()) out') :
    ∃ log : List Threads.Item, (log.map fun d => d.info.debugId).Nodup ∧
      (∀ d ∈ log, Threads.MadeOnce (threads env extra config files ws orders mapping arch out) d.src d.info ∧
        ∀ j, j ∈ d.src ↔ ∃ g oj, files[j]? = some g ∧ (parseInput env config mapping arch g (ws j)).1 = .ok oj ∧ oj.debugId = d.info.debugId) ∧
      (∀ (i : Nat) f oi, files[i]? = some f → (parseInput env config mapping arch f (ws i)).1 = .ok oi → ∃ d ∈ log, d.info.debugId = oi.debugId) ∧
      ∀ fo, (∀ l o l' o', Threads.MadeOnce (threads env extra config files ws orders mapping arch out) l o →
          Threads.MadeOnce (threads env extra config files ws orders mapping arch out) l' o' →
          Output.Requested config.output o fo → Output.Requested config.output o' fo → o.debugId = o'.debugId) →
        ∀ d ∈ log, Output.Requested config.output d.info fo →
          out'.seen fo = (Output.store env.io extra config.output config.checkCfi d.info out).2.seen fo := by
  generalize hr : (Res.ok () : Res Unit) = r at h
  cases h with
  | badOptions m h => cases hr
  | badMapping h => cases hr
  | crashed mapping' arch' m h hs hc => cases hr
  | returned mapping' arch' m h hmom hret =>
    rw [hprep] at h; cases h
    have hs := Threads.moments_reach hmom
    generalize hsm : m.s = s at hs hret
    have hT : ∀ j g, files[j]? = some g → (threads env extra config files ws orders mapping arch out).parse j =
        (parseInput env config mapping arch g (ws j)).1 := fun j g hg => threads_parse hg
    have hst : ∀ l o, Threads.MadeOnce (threads env extra config files ws orders mapping arch out) l o →
        (threads env extra config files ws orders mapping arch out).store o = .ok () := by
      intro l o hm
      obtain ⟨t, ht, hroom⟩ := hworks.prints l o hm
      obtain ⟨w', h1, _⟩ := Output.C28_complete env.io extra config.output config.checkCfi o out (made_no_slash hm.2.2)
        (fun hc => hworks.cfi hc _ _ hm) ht
        (hworks.chunks t) hworks.mkdirs (fun p _ => hworks.create p) (fun fo _ => hroom fo)
      simp only [threads, h1]
    obtain ⟨hnodup, hmods⟩ := Threads.C49_once (threads env extra config files ws orders mapping arch out) horder s hs
    refine ⟨s.log, hnodup, ?_, ?_, ?_⟩
    · intro d hd
      obtain ⟨m1, m2, m3⟩ := hmods d hd
      refine ⟨⟨m2, fun f hf => ((m3 f).mp hf).1, m1⟩, fun j => ?_⟩
      rw [m3 j]
      constructor
      · rintro ⟨hj, o, h1, h2⟩
        have hj' : j < files.length := hj
        rw [hT j _ (List.getElem?_eq_getElem hj')] at h1
        exact ⟨_, o, List.getElem?_eq_getElem hj', h1, h2⟩
      · rintro ⟨g, o, hg, h1, h2⟩
        exact ⟨(List.getElem?_eq_some_iff.mp hg).1, o, by rw [hT j g hg]; exact h1, h2⟩
    · intro i f oi hi hoi
      have hcount := Threads.C50_complete (threads env extra config files ws orders mapping arch out) horder hlen (by
          intro j hj
          have hj' : j < files.length := hj
          obtain ⟨o, h1, _⟩ := hparse j files[j] (List.getElem?_eq_getElem hj')
          exact ⟨o, by rw [hT j _ (List.getElem?_eq_getElem hj')]; exact h1⟩)
        hst s hs hret i (List.getElem?_eq_some_iff.mp hi).1 oi.debugId ⟨oi, by rw [hT i f hi]; exact hoi, rfl⟩
      have hin : oi.debugId ∈ s.log.map fun d => d.info.debugId := List.count_pos_iff.mp (by omega)
      exact List.mem_map.mp hin
    · intro fo honly d hd hreq
      have hg := Threads.moments_going (env := threads env extra config files ws orders mapping arch out) horder (fun l o hm => made_no_slash hm.2.2) hworks.chunks honly hmom
      exact (hg.done d (by rw [hsm]; exact hd) hreq).2

/-- **C68 (partial).** A run over several files with a store, in which every input can be read and nothing goes wrong with
writing: when it ends, each input has its module in the store.  The module is made of exactly the inputs with the same debug
id, and the file at its place is its complete text.  Missing: an output file, which the modules of different debug ids all
overwrite (`C68_overwritten_witness`; with one debug id it is as it should be, `C68_one_id`), and runs that do not end (C51). -/
theorem C68_stored_partial (env : Env) (extra : Option (List Str)) (config : Config) (files : List Str) (ws : Nat → Cache.World)
    (orders : Orders) (out out' : Output.World) (mapping : Option (List Mapping.Generator)) (arch : Str)
    (hlen : files.length ≠ 1) (hprep : prepare env config = .ok (mapping, arch)) (horder : ∀ t, (orders.results t).Perm t)
    (hparse : ∀ (i : Nat) f, files[i]? = some f → ∃ o, (parseInput env config mapping arch f (ws i)).1 = .ok o ∧ ProperComp o.debugId)
    (hworks : Works env extra config (threads env extra config files ws orders mapping arch out))
    (dir : Str) (hd : dir ≠ [])
    (hstore : config.output = .store dir ∨ ∃ fo, config.output = .fileAndStore fo dir ∧
      ∀ l o, Threads.MadeOnce (threads env extra config files ws orders mapping arch out) l o →
        ∀ p, InStore dir o.fileName o.debugId p → fo ≠ .path p)
    (h : SeveralFiles env extra config files ws orders out (.ok ()) out')
    (i : Nat) (f : Str) (hi : files[i]? = some f) (oi : ObjectInfo) (hoi : (parseInput env config mapping arch f (ws i)).1 = .ok oi) :
    ∃ l o t p, Threads.MadeOnce (threads env extra config files ws orders mapping arch out) l o ∧
      (∀ j, j ∈ l ↔ ∃ g oj, files[j]? = some g ∧ (parseInput env config mapping arch g (ws j)).1 = .ok oj ∧ oj.debugId = oi.debugId) ∧
      o.debugId = oi.debugId ∧ o.display extra = .ok t ∧ InStore dir o.fileName o.debugId p ∧ out'.files p = some (Utf8.encode t) := by
  obtain ⟨log, hnodup, hmods, hall, hseen⟩ := several_log hlen hprep horder hparse hworks h
  obtain ⟨d, hdlog, hdid⟩ := hall i f oi hi hoi
  have hid1 : ∀ j o, (threads env extra config files ws orders mapping arch out).parse j = .ok o → ProperComp o.debugId := by
    intro j o ho
    cases hj : files[j]? with
    | none => simp only [threads, hj] at ho; cases ho
    | some g =>
      rw [threads_parse hj] at ho
      obtain ⟨o', h1, h2⟩ := hparse j g hj
      rw [ho] at h1; cases h1; exact h2
  have hids : ∀ l o, Threads.Made (threads env extra config files ws orders mapping arch out) l o → ProperComp o.debugId := by
    intro l o hm
    cases hm with
    | one f o ho => exact hid1 f o ho
    | more f l o p c ho _ hm => rw [(merge_ok hm).2]; exact hid1 f o ho
  have hstore' : config.output = .store dir ∨ ∃ fo, config.output = .fileAndStore fo dir ∧
      ∀ l o, Threads.MadeOnce (threads env extra config files ws orders mapping arch out) l o → fo ≠ .path (placeOf dir o) := by
    rcases hstore with h | ⟨fo, h, hf⟩
    · exact .inl h
    · exact .inr ⟨fo, h, fun l o hm => hf l o hm _ ((inStore_iff (made_no_slash hm.2.2)).mpr rfl)⟩
  have hm := (hmods d hdlog).1
  have hname : ∀ l o, Threads.MadeOnce (threads env extra config files ws orders mapping arch out) l o → '/' ∉ o.fileName :=
    fun l o hm => made_no_slash hm.2.2
  have hst : config.output = .store dir ∨ ∃ fo, config.output = .fileAndStore fo dir := by
    rcases hstore with h | ⟨fo, h, _⟩
    · exact .inl h
    · exact .inr ⟨fo, h⟩
  have hreq : Output.Requested config.output d.info (.path (placeOf dir d.info)) := .store hst hd ((inStore_iff (hname _ _ hm)).mpr rfl)
  obtain ⟨t, t1, hroom⟩ := hworks.prints _ _ hm
  obtain ⟨w', h1, h2⟩ := Output.C28_complete env.io extra config.output config.checkCfi d.info out (hname _ _ hm)
    (fun hc => hworks.cfi hc _ _ hm) t1 (hworks.chunks t) hworks.mkdirs (fun p _ => hworks.create p) (fun fo _ => hroom fo)
  have t2 : out'.files (placeOf dir d.info) = some (Utf8.encode t) := by
    have := hseen (.path (placeOf dir d.info)) (fun l o l' o' hm1 hm2 hr1 hr2 =>
      (place_id hd hstore' hname (fun l o hm => hids l o hm.2.2) hm hm1 hr1).symm.trans
        (place_id hd hstore' hname (fun l o hm => hids l o hm.2.2) hm hm2 hr2)) d hdlog hreq
    rw [h1] at this
    exact holds_seen (w := out) (h2 _ hreq) this
  obtain ⟨m1, m2⟩ := hmods d hdlog
  rw [hdid] at m2
  exact ⟨d.src, d.info, t, _, m1, m2, hdid, t1, (inStore_iff (made_no_slash m1.2.2)).mpr rfl, t2⟩

/-- **C68, inputs with one debug id.** A run over several files that all have the same debug id, in which every input can be read and nothing
goes wrong with writing: when it ends, one module has been made, of all the inputs, and every destination asked for holds its complete
text. -/
theorem C68_one_id (env : Env) (extra : Option (List Str)) (config : Config) (files : List Str) (ws : Nat → Cache.World)
    (orders : Orders) (out out' : Output.World) (mapping : Option (List Mapping.Generator)) (arch : Str)
    (hlen : 1 < files.length) (hprep : prepare env config = .ok (mapping, arch)) (horder : ∀ t, (orders.results t).Perm t)
    (hparse : ∀ (i : Nat) f, files[i]? = some f → ∃ o, (parseInput env config mapping arch f (ws i)).1 = .ok o ∧ ProperComp o.debugId)
    (hworks : Works env extra config (threads env extra config files ws orders mapping arch out)) (id : Str)
    (hid : ∀ (i : Nat) f, files[i]? = some f → ∀ o, (parseInput env config mapping arch f (ws i)).1 = .ok o → o.debugId = id)
    (h : SeveralFiles env extra config files ws orders out (.ok ()) out') :
    ∃ l o t, Threads.MadeOnce (threads env extra config files ws orders mapping arch out) l o ∧ (∀ j, j ∈ l ↔ j < files.length) ∧
      o.debugId = id ∧ o.display extra = .ok t ∧ ∀ fo, Output.Requested config.output o fo → Output.Holds out out' fo (Utf8.encode t) := by
  obtain ⟨log, hnodup, hmods, hall, hseen⟩ := several_log (by omega) hprep horder hparse hworks h
  have hid1 : ∀ j o, (threads env extra config files ws orders mapping arch out).parse j = .ok o → o.debugId = id := by
    intro j o ho
    cases hj : files[j]? with
    | none => simp only [threads, hj] at ho; cases ho
    | some g => rw [threads_parse hj] at ho; exact hid j g hj o ho
  have hmade : ∀ {l o}, Threads.Made (threads env extra config files ws orders mapping arch out) l o → o.debugId = id := by
    intro l o hm
    cases hm with
    | one f o ho => exact hid1 f o ho
    | more f l o p c ho _ hm => rw [(merge_ok hm).2]; exact hid1 f o ho
  have hidl : ∀ d ∈ log, d.info.debugId = id := fun d hd => hmade (hmods d hd).1.2.2
  have h0 : files[0]? = some files[0] := List.getElem?_eq_getElem (by omega)
  obtain ⟨o0, p0, _⟩ := hparse 0 files[0] h0
  obtain ⟨d, hd, _⟩ := hall 0 files[0] o0 h0 p0
  obtain ⟨m1, m2⟩ := hmods d hd
  obtain ⟨t, ht, hroom⟩ := hworks.prints _ _ m1
  obtain ⟨w', h1, h2⟩ := Output.C28_complete env.io extra config.output config.checkCfi d.info out (made_no_slash m1.2.2)
    (fun hc => hworks.cfi hc _ _ m1) ht (hworks.chunks t) hworks.mkdirs (fun p _ => hworks.create p) (fun fo _ => hroom fo)
  refine ⟨d.src, d.info, t, m1, fun j => ?_, hidl d hd, ht, ?_⟩
  · constructor
    · exact fun hj => m1.2.1 j hj
    · intro hj
      obtain ⟨oj, k1, _⟩ := hparse j files[j] (List.getElem?_eq_getElem hj)
      exact (m2 j).mpr ⟨_, oj, List.getElem?_eq_getElem hj, k1, (hid j _ (List.getElem?_eq_getElem hj) oj k1).trans (hidl d hd).symm⟩
  · intro fo hreq
    have := hseen fo (fun l o l' o' a b _ _ => (hmade a.2.2).trans (hmade b.2.2).symm) d hd hreq
    rw [h1] at this
    exact holds_seen (h2 fo hreq) this

/-- **C69.** With a store, no symbol server and no ids, and nothing going wrong: an input whose debug id no other input has
gets, in a run over several files, the same symbol file as in a run of its own from a state `w` of the disk in which the same is read for it
(such as the state met by the worker, or any other if no symbol server is configured, `C69_no_server`). -/
theorem C69_same_as_alone (env : Env) (extra : Option (List Str)) (config : Config) (files : List Str) (ws : Nat → Cache.World)
    (orders : Orders) (out out' : Output.World) (mapping : Option (List Mapping.Generator)) (arch : Str)
    (hlen : files.length ≠ 1) (hprep : prepare env config = .ok (mapping, arch)) (horder : ∀ t, (orders.results t).Perm t)
    (hs : config.symbolServer = none) (hdi : config.debugId = none) (hci : config.codeId = none)
    (hparse : ∀ (i : Nat) f, files[i]? = some f → ∃ o, (parseInput env config mapping arch f (ws i)).1 = .ok o ∧ ProperComp o.debugId)
    (hworks : Works env extra config (threads env extra config files ws orders mapping arch out))
    (dir : Str) (hd : dir ≠ []) (hstore : config.output = .store dir)
    (h : SeveralFiles env extra config files ws orders out (.ok ()) out')
    (i : Nat) (f : Str) (hi : files[i]? = some f)
    (hone : ∀ j g oj oi, files[j]? = some g → (parseInput env config mapping arch g (ws j)).1 = .ok oj →
      (parseInput env config mapping arch f (ws i)).1 = .ok oi → oj.debugId = oi.debugId → j = i)
    (w : Cache.World) (hw : (parseInput env config mapping arch f w).1 = (parseInput env config mapping arch f (ws i)).1) :
    ∃ o t p, (readSingle env config f w).1 = .ok o ∧ o.display extra = .ok t ∧ InStore dir o.fileName o.debugId p ∧
      (singleFile env extra config f w out).1 = .ok () ∧
      (singleFile env extra config f w out).2.2.files p = some (Utf8.encode t) ∧ out'.files p = some (Utf8.encode t) := by
  obtain ⟨oi, hoi, _⟩ := hparse i f hi
  obtain ⟨l, o, t, p, m1, m3, m4, m5, mp, m6⟩ := C68_stored_partial env extra config files ws orders out out' mapping arch hlen hprep horder
    hparse hworks dir hd (.inl hstore) h i f hi oi hoi
  have hall : ∀ j ∈ l, j = i := by
    intro j hj
    obtain ⟨g, oj, h1, h2, h3⟩ := (m3 j).mp hj
    exact hone j g oj oi h1 h2 hoi h3
  have ho : o = oi := by
    obtain ⟨m2, _, m1⟩ := m1
    cases m1 with
    | one j o ho =>
      have := hall j (by simp)
      subst this
      rw [threads_parse hi, hoi] at ho; cases ho; rfl
    | more j l o p c ho hm hc =>
      exfalso
      have hj := hall j (by simp)
      subst hj
      have hl : ∀ {l p}, Threads.Made (threads env extra config files ws orders mapping arch out) l p → l ≠ [] := by
        intro l p h; cases h <;> simp
      obtain ⟨k, hk⟩ := List.exists_mem_of_ne_nil _ (hl hm)
      have := hall k (by simp [hk])
      subst this
      exact (List.nodup_cons.mp m2).1 hk
  subst ho
  have hread : (readSingle env config f w).1 = .ok o := by
    rw [C65_same_module_partial env config f w hs hdi hci hprep, hw]; exact hoi
  obtain ⟨s1, s2⟩ := C62_complete env extra config f w out hread (fun hc => hworks.cfi hc _ _ m1) m5 (hworks.chunks t) hworks.mkdirs
    hworks.create (by
      obtain ⟨t', h1, h2⟩ := hworks.prints _ _ m1
      rw [m5] at h1; cases h1; exact h2)
  exact ⟨o, t, p, hread, m5, mp, s1, s2 _ (.store (.inl hstore) hd mp), m6⟩

/-! ## Listing the architectures -/

/-- `t` is what is to be said about the file `f`: its name and the architectures of its objects, all of which can be read. -/
def Lists (env : Env) (d : Disk) (f t : Str) : Prop :=
  ∃ (name : Str) (buf : Bytes) (objs : List ObjInput), Path.fileName f = some name ∧ PathHolds env.net.cab d f buf ∧
    env.parsers.archive buf = .ok (objs.map some) ∧
    t = name ++ (if objs.length = 1 then str% " contains the following architecture:\n" else str% " contains the following architectures:\n") ++
      List.intercalate (str% ", ") (objs.map (·.arch)) ++ str% "\n"

/-- The file can be read but is not an archive: `m` says why. -/
def NoArchive (env : Env) (d : Disk) (f m : Str) : Prop :=
  ∃ (name : Str) (buf : Bytes), Path.fileName f = some name ∧ PathHolds env.net.cab d f buf ∧ env.parsers.archive buf = .error m

/-- `texts` is what is to be said about each of the files. -/
inductive ListsAll (env : Env) (d : Disk) : List Str → List Str → Prop where
  | nil : ListsAll env d [] []
  | cons (f t : Str) (fs ts : List Str) : Lists env d f t → ListsAll env d fs ts → ListsAll env d (f :: fs) (t :: ts)

theorem listArch_spec (env : Env) (f : Str) (d : Disk) (hd : Named d) (out : Output.World) :
    (∃ t, Lists env d f t ∧ listArch env f d out = (.ok (), { out with stdout := out.stdout ++ Utf8.encode t })) ∨
    ((∀ t, ¬ Lists env d f t) ∧ (listArch env f d out).1 ≠ .ok () ∧ (listArch env f d out).2 = out ∧
      ∀ m, (listArch env f d out).1 = .err m ↔ NoArchive env d f m) := by
  have hsome : ∀ objs : List (Option ObjInput), objs.any Option.isNone = false → objs = (objs.filterMap id).map some := by
    intro objs h
    induction objs with
    | nil => rfl
    | cons x xs ih =>
      cases x with
      | none => simp at h
      | some y =>
        rw [List.any_cons, Option.isNone_some, Bool.false_or] at h
        simpa using ih h
  have hread := (C77_read_any env.net.cab d f (hd.files f) hd.dirs).1
  unfold listArch Utils.getFilename
  cases h1 : Path.fileName f with
  | none => exact .inr ⟨(fun t ⟨_, _, _, h, _⟩ => by rw [h1] at h; cases h), by simp, rfl, fun m => ⟨(fun h => by cases h), fun ⟨_, _, h, _⟩ => by rw [h1] at h; cases h⟩⟩
  | some name =>
    simp only
    cases h2 : Files.readFile env.net.cab d f with
    | err m =>
      exfalso
      have := (C77_read_any env.net.cab d f (hd.files f) hd.dirs).2 (by rintro ⟨b, hb⟩; rw [h2] at hb; cases hb)
      rw [h2] at this; cases this
    | panic =>
      refine .inr ⟨(fun t ⟨_, _, _, _, h, _⟩ => by rw [← hread, h2] at h; cases h), by simp, rfl, fun m => ⟨(fun h => by cases h), fun ⟨_, _, _, h, _⟩ => ?_⟩⟩
      rw [← hread, h2] at h; cases h
    | ok buf =>
      simp only [machoArchitectures]
      cases h3 : env.parsers.archive buf with
      | error m =>
        refine .inr ⟨(fun t ⟨_, _, _, _, h, h', _⟩ => by rw [← hread, h2] at h; cases h; rw [h3] at h'; cases h'), by simp, rfl, fun m' => ?_⟩
        constructor
        · intro h; cases h; exact ⟨name, buf, h1, (hread buf).mp h2, h3⟩
        · rintro ⟨_, _, _, h, h'⟩
          rw [← hread, h2] at h; cases h
          rw [h3] at h'; cases h'; rfl
      | ok objs =>
        simp only
        cases h4 : objs.any Option.isNone with
        | true =>
          refine .inr ⟨?_, by simp, rfl, fun m => ⟨(fun h => by simp at h), fun ⟨_, _, _, h, h'⟩ => ?_⟩⟩
          · rintro t ⟨_, _, os, _, h, h', _⟩
            rw [← hread, h2] at h; cases h
            rw [h3] at h'; cases h'
            simp at h4
          · rw [← hread, h2] at h; cases h
            rw [h3] at h'; cases h'
        | false =>
          refine .inl ⟨_, ⟨name, buf, objs.filterMap id, h1, (hread buf).mp h2, by rw [h3, ← hsome objs h4], rfl⟩, ?_⟩
          simp only [Bool.false_eq_true, if_false, Output.World.receive, List.length_map]
          split <;> simp

/-- **C70.** Listing: files are taken in order; for each one, its name and the architectures of all its objects go to standard output.
The first file that has no name, cannot be read, is not an archive or has an object that cannot be read ends the listing with a
failure (an error if it can be read and is not an archive, else a crash); it and the files after it get no line.  No file is written. -/
theorem C70_list_arch (env : Env) (d : Disk) (hd : Named d) (files : List Str) (out : Output.World) :
    ∃ done rest texts, files = done ++ rest ∧ ListsAll env d done texts ∧
      (listArchs env d files out).2 = { out with stdout := out.stdout ++ Utf8.encode texts.flatten } ∧
      ((listArchs env d files out).1 = .ok () ↔ rest = []) ∧
      ∀ f fs, rest = f :: fs → (∀ t, ¬ Lists env d f t) ∧ ∀ m, (listArchs env d files out).1 = .err m ↔ NoArchive env d f m := by
  induction files generalizing out with
  | nil => exact ⟨[], [], [], rfl, .nil, by simp [listArchs, Utf8.encode], by simp [listArchs], by intro f fs h; cases h⟩
  | cons f fs ih =>
    rcases listArch_spec env f d hd out with ⟨t, hl, he⟩ | ⟨hn, hr, ho, hx⟩
    · unfold listArchs
      rw [he]
      simp only
      obtain ⟨done, rest, texts, e1, e2, e3, e4, e5⟩ := ih { out with stdout := out.stdout ++ Utf8.encode t }
      refine ⟨f :: done, rest, t :: texts, by rw [e1]; rfl, .cons f t done texts hl e2, ?_, e4, e5⟩
      rw [e3]
      simp [Utf8.encode_append]
    · have hm : listArchs env d (f :: fs) out = listArch env f d out := by
        unfold listArchs
        cases h : (listArch env f d out).1 with
        | ok u => exact absurd h hr
        | err m => simp only [h]
        | panic => simp only [h]
      refine ⟨[], f :: fs, [], rfl, .nil, ?_, ?_, ?_⟩
      · rw [hm, ho]; simp [Utf8.encode]
      · rw [hm]
        constructor
        · intro h; exact absurd h hr
        · intro h; cases h
      · intro g gs h; cases h; rw [hm]; exact ⟨hn, hx⟩

/-! ## The options -/

theorem prepare_err {env : Env} {config : Config} {m : Str} (h : prepare env config = .err m) :
    env.parsers.arch config.arch = none ∨
      ∃ m, Mapping.new env.map config.mappingVar config.mappingSrc config.mappingDest config.mappingFile = .err m := by
  unfold prepare at h
  cases hm : Mapping.new env.map config.mappingVar config.mappingSrc config.mappingDest config.mappingFile with
  | err m => exact .inr ⟨m, rfl⟩
  | panic => rw [hm] at h; cases h
  | ok x =>
    rw [hm] at h
    left
    cases ha : env.parsers.arch config.arch with
    | none => rfl
    | some a => rw [ha] at h; cases h

/-- What the options of a dump say: where the symbols go, and how they are made. -/
structure Configures (cpus : Nat) (o : Options) (c : Config) : Prop where
  /-- The destinations: standard output, the file, the store. -/
  destinations : ∀ m fo, Output.Requested c.output m fo ↔
    (o.output = none ∧ o.store = none ∧ fo = .stdout) ∨ (o.output = some ['-'] ∧ fo = .stdout) ∨
    (∃ f, o.output = some f ∧ f ≠ ['-'] ∧ fo = .path f) ∨
    ∃ d p, o.store = some d ∧ d ≠ [] ∧ InStore d m.fileName m.debugId p ∧ fo = .path p
  jobs : ∀ n, c.numJobs = n ↔ Mapping.Numeral o.numJobs n ∨ ((∀ k, ¬ Mapping.Numeral o.numJobs k) ∧ n = cpus)
  search : c.symbolServer = o.symbolServer ∧ c.debugId = o.debugId ∧ c.codeId = o.codeId
  reading : c.arch = o.arch ∧ c.emitInlines = o.inlines
  checkCfi : c.checkCfi = o.checkCfi
  mapping : c.mappingVar = o.mappingVar ∧ c.mappingSrc = o.mappingSrc ∧ c.mappingDest = o.mappingDest ∧ c.mappingFile = o.mappingFile

/-- **C64, all options.** With `--list-arch` nothing is dumped; otherwise each option has its effect and no other. -/
theorem C64_config (cpus : Nat) (o : Options) :
    (o.listArch = true → actionOf cpus o = .listArch) ∧ (o.listArch = false → ∃ c, actionOf cpus o = .dump c ∧ Configures cpus o c) := by
  refine ⟨fun h => by simp [actionOf, h], fun h => ⟨_, by simp only [actionOf, h, Bool.false_eq_true, if_false]; rfl, ?_⟩⟩
  refine ⟨fun m fo => Main.C64_destinations m o.output o.store fo, ?_, ⟨rfl, rfl, rfl⟩, ⟨rfl, rfl⟩, rfl, rfl, rfl, rfl, rfl⟩
  obtain ⟨h1, h2⟩ := Main.C64_jobs cpus o.numJobs
  intro n
  constructor
  · rintro rfl
    by_cases hk : ∃ k, Mapping.Numeral o.numJobs k
    · obtain ⟨k, hk⟩ := hk
      exact .inl (by rw [show Main.numJobs cpus o.numJobs = k from h1 k hk]; exact hk)
    · exact .inr ⟨fun k hk' => hk ⟨k, hk'⟩, h2 fun k hk' => hk ⟨k, hk'⟩⟩
  · rintro (h | ⟨h, rfl⟩)
    · exact h1 n h
    · exact h2 h

/-- What the options say of the INFO lines. -/
def Infos (version : Str) (o : Options) : List Str :=
  o.extraInfo.getD [] ++ if o.noGenerator then [] else [str% "GENERATOR mozilla/dump_syms " ++ version]

theorem getExtraInfo_infos {version : Str} {o : Options} {extra : List Str}
    (h : Main.getExtraInfo version o.extraInfo o.noGenerator = .ok extra) : extra = Infos version o := by
  unfold Main.getExtraInfo at h
  unfold Infos
  have hall : ∀ v ∈ o.extraInfo.getD [], Main.InfoLine v := by
    intro v hv
    refine Classical.byContradiction fun hn => ?_
    have := (Main.C55_rejected version o.extraInfo o.noGenerator).mpr ⟨v, hv, hn⟩
    unfold Main.getExtraInfo at this
    rw [h] at this; cases this
  cases he : o.extraInfo with
  | none =>
    rw [he] at h
    cases hg : o.noGenerator <;> rw [hg] at h <;> cases h <;> rfl
  | some vs =>
    rw [he] at h hall
    simp only [Option.getD_some] at h hall
    rw [Main.checkedInfos_ok hall] at h
    cases hg : o.noGenerator <;> rw [hg] at h <;> cases h <;> simp

/-! ## The exit status -/

/-- **C71, first part.** A value of `--extra-info` of the wrong form ends the program with status 101 before anything is written. -/
theorem C71_bad_info (env : Env) (version : Str) (cpus : Nat) (o : Options) (w : Cache.World) (orders : Orders) (out out' : Output.World)
    (code : Nat) (h : Exits env version cpus o w orders out code out') (hb : ∃ v ∈ o.extraInfo.getD [], ¬ Main.InfoLine v) :
    code = 101 ∧ out' = out := by
  have hp := (Main.C55_rejected version o.extraInfo o.noGenerator).mpr hb
  cases h with
  | badInfo h => exact ⟨rfl, rfl⟩
  | acts extra r out' h ha => rw [hp] at h; cases h

/-- **C71, second part.** An unknown architecture, or mappings that are not usable, end a dump with a status other than 0, and nothing
is written. -/
theorem C71_bad_options (env : Env) (version : Str) (cpus : Nat) (o : Options) (w : Cache.World) (orders : Orders) (out out' : Output.World)
    (code : Nat) (h : Exits env version cpus o w orders out code out') (hl : o.listArch = false)
    (hb : env.parsers.arch o.arch = none ∨ ∃ m, Mapping.new env.map o.mappingVar o.mappingSrc o.mappingDest o.mappingFile = .err m) :
    code ≠ 0 ∧ out' = out := by
  cases h with
  | badInfo h => exact ⟨by simp, rfl⟩
  | acts extra r out' h ha =>
    generalize hact : actionOf cpus o = act at ha
    have hcfg : ∀ config, act = .dump config → env.parsers.arch config.arch = none ∨
        ∃ m, Mapping.new env.map config.mappingVar config.mappingSrc config.mappingDest config.mappingFile = .err m := by
      rintro config rfl
      simp only [actionOf, hl, Bool.false_eq_true, if_false, Action.dump.injEq] at hact
      subst hact
      exact hb
    cases ha with
    | list => simp [actionOf, hl] at hact
    | single config f hf =>
      obtain ⟨h1, h2⟩ := C62_bad_options env (some extra) config f w out (hcfg config rfl)
      refine ⟨?_, h2⟩
      intro h0
      cases hr : (singleFile env (some extra) config f w out).1 with
      | ok u => exact h1 hr
      | err m => rw [hr] at h0; cases h0
      | panic => rw [hr] at h0; cases h0
    | several config ws r out' hlen hw hs =>
      have hp := prepare_bad (hcfg config rfl)
      cases hs with
      | badOptions m h => exact ⟨by simp [exitStatus], rfl⟩
      | badMapping h => exact ⟨by simp [exitStatus], rfl⟩
      | returned mapping arch s h hr hs => exact absurd h (hp _)
      | crashed mapping arch s h hr hs => exact absurd h (hp _)

/-- **C71 (partial).** When the program ends with status 0: with `--list-arch`, every file was listed; with one file, its module was
read and written as far as the destination takes it.  Missing: several files, for which status 0 does not mean that anything was
written (`C71_several_witness`). -/
theorem C71_status_partial (env : Env) (version : Str) (cpus : Nat) (o : Options) (w : Cache.World) (orders : Orders)
    (out out' : Output.World) (hd : Named w.disk) (h : Exits env version cpus o w orders out 0 out') :
    (∀ v ∈ o.extraInfo.getD [], Main.InfoLine v) ∧
    (o.listArch = true → ∃ texts, ListsAll env w.disk o.filenames texts ∧
      out' = { out with stdout := out.stdout ++ Utf8.encode texts.flatten }) ∧
    (o.listArch = false → ∀ f, o.filenames = [f] → ∃ config m, Configures cpus o config ∧
      (readSingle env config f w).1 = .ok m ∧ (o.checkCfi = true → m.stack ≠ []) ∧
      ∀ t, m.display (some (Infos version o)) = .ok t → (env.io.chunks t).flatten = Utf8.encode t →
        (∀ p d, config.output = .fileAndStore (.path p) d → ¬ InStore d m.fileName m.debugId p) →
        ∀ fo, Output.Requested config.output m fo →
          Output.Holds out out' fo ((Utf8.encode t).take (env.io.room fo)) ∧
          (Utf8.encode t).length ≤ env.io.room fo + env.io.capacity) := by
  have hex : ∀ r, exitStatus r = 0 → r = .ok () := by
    intro r hr
    cases r with
    | ok u => rfl
    | err m => cases hr
    | panic => cases hr
  generalize hc : (0 : Nat) = code at h
  cases h with
  | badInfo h => cases hc
  | acts extra r out' h ha =>
    have hr := hex r hc.symm
    refine ⟨?_, ?_, ?_⟩
    · intro v hv
      refine Classical.byContradiction fun hn => ?_
      rw [(Main.C55_rejected version o.extraInfo o.noGenerator).mpr ⟨v, hv, hn⟩] at h
      cases h
    · intro hl
      unfold actionOf at ha
      rw [hl] at ha
      simp only [if_true] at ha
      cases ha with
      | list =>
        obtain ⟨done, rest, texts, e1, e2, e3, e4, _⟩ := C70_list_arch env w.disk hd o.filenames out
        rw [e4.mp hr, List.append_nil] at e1
        subst e1
        exact ⟨texts, e2, e3⟩
    · intro hl f hf
      obtain ⟨c, hc, hcfg⟩ := (C64_config cpus o).2 hl
      rw [hc] at ha
      cases ha with
      | several config ws r out' hlen hw hs => rw [hf] at hlen; exact absurd rfl hlen
      | single config g hg =>
        rw [hf] at hg; cases hg
        obtain ⟨m, h1, h2, h3⟩ := C62_success_partial env (some extra) c f w out hr
        rw [hcfg.checkCfi] at h2
        have hx := getExtraInfo_infos h
        subst hx
        exact ⟨c, m, hcfg, h1, h2, h3⟩

/-- **C71, third part.** Several files: the status is 1 only for options that are not usable, and then nothing is written. -/
theorem C71_several_status (env : Env) (version : Str) (cpus : Nat) (o : Options) (w : Cache.World) (orders : Orders) (out out' : Output.World)
    (h : Exits env version cpus o w orders out 1 out') (hl : o.listArch = false) (hlen : o.filenames.length ≠ 1) :
    out' = out ∧ (env.parsers.arch o.arch = none ∨
      ∃ m, Mapping.new env.map o.mappingVar o.mappingSrc o.mappingDest o.mappingFile = .err m) := by
  generalize hc : (1 : Nat) = code at h
  cases h with
  | badInfo h => cases hc
  | acts extra r out' h ha =>
    obtain ⟨c, hact, hcfg⟩ := (C64_config cpus o).2 hl
    rw [hact] at ha
    cases ha with
    | single config f hf => rw [hf] at hlen; exact absurd rfl hlen
    | several config ws r out' hlen hw hs =>
      cases hs with
      | badOptions m h =>
        refine ⟨rfl, ?_⟩
        rw [← hcfg.reading.1, ← hcfg.mapping.1, ← hcfg.mapping.2.1, ← hcfg.mapping.2.2.1, ← hcfg.mapping.2.2.2]
        exact prepare_err h
      | badMapping h => cases hc
      | returned mapping arch s h hr hs => cases hc
      | crashed mapping arch s h hr hs => cases hc

end Run
end DumpSyms
