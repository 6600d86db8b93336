import Verif.Model.WinFold
import Verif.Props.WinRunSamples
/-!
# C132: the symbol store on a disk that does not tell apart names that differ in case only
-/
namespace DumpSyms
namespace WinHost
open WinPath
open Dumper (Env Config prepare)
open Run (Orders Works)
open Output (FileOutput Out IoEnv Todo todoTo finish finish_append Along Partway along_todoTo along_append todoTo_writeTo dump_fits opens opening)

/-- A table of upper-case counterparts: it keeps the separator, and no other character becomes one. -/
def Folding (fold : Char → Char) : Prop := ∀ c, fold c = '\\' ↔ c = '\\'

/-- The disk does not tell the two texts apart. -/
def SameFolded (fold : Char → Char) (a b : Str) : Prop := a.map fold = b.map fold

theorem noBack_map {fold : Char → Char} (hf : Folding fold) {s : Str} (h : NoSep s) : '\\' ∉ s.map fold := by
  intro hm
  obtain ⟨c, hc, e⟩ := List.mem_map.mp hm
  rw [hf] at e
  subst e
  exact h.2 hc

theorem back_split {a b x y : Str} (ha : '\\' ∉ a) (hb : '\\' ∉ b) (h : a ++ '\\' :: x = b ++ '\\' :: y) : a = b ∧ x = y := by
  induction a generalizing b with
  | nil =>
    cases b with
    | nil => exact ⟨rfl, (List.cons.inj h).2⟩
    | cons c b => exact absurd (List.cons.inj h).1 (fun e => hb (by simp [← e]))
  | cons c a ih =>
    cases b with
    | nil => exact absurd (List.cons.inj h).1 (fun e => ha (by simp [e]))
    | cons d b =>
      obtain ⟨e, h⟩ := List.cons.inj h
      obtain ⟨e1, e2⟩ := ih (fun hm => ha (by simp [hm])) (fun hm => hb (by simp [hm])) h
      exact ⟨by rw [e, e1], e2⟩

theorem inside_fold {fold : Char → Char} {dir x y p q : Str} (hp : Inside dir x p) (hq : Inside dir y q) (h : SameFolded fold p q) : SameFolded fold x y := by
  unfold SameFolded at h ⊢
  rcases hp with ⟨k, rfl⟩ | ⟨k, rfl⟩ <;> rcases hq with ⟨k', rfl⟩ | ⟨k', rfl⟩
  · simp only [List.map_append] at h
    exact List.append_cancel_left h
  · exact absurd k k'
  · exact absurd k' k
  · simp only [List.map_append, List.map_cons] at h
    exact (List.cons.inj (List.append_cancel_left h)).2

/-- **C132, two modules.** Two modules whose places in a store are one file for the disk have identifiers, directories and file names that differ at most in
case. -/
theorem C132_places {fold : Char → Char} (hf : Folding fold) {dir n1 n2 id1 id2 p1 p2 : Str} (hd : PlainDir dir) (h1 : WinProper n1) (h2 : WinProper n2)
    (hi1 : WinProper id1) (hi2 : WinProper id2) (hp1 : InStore dir n1 id1 p1) (hp2 : InStore dir n2 id2 p2) (h : SameFolded fold p1 p2) :
    SameFolded fold id1 id2 ∧ (∀ d e, StoreDirName n1 d → StoreDirName n2 e → SameFolded fold d e) ∧
      ∀ f g, StoreFileName n1 f → StoreFileName n2 g → SameFolded fold f g := by
  obtain ⟨d1, f1, a1, b1, c1⟩ := hp1
  obtain ⟨d2, f2, a2, b2, c2⟩ := hp2
  obtain ⟨e1, g1, k1, l1, m1, o1, _⟩ := storePath hd h1 hi1
  obtain ⟨e2, g2, k2, l2, m2, o2, _⟩ := storePath hd h2 hi2
  cases storeDir_unique a1 k1
  cases storeDir_unique a2 k2
  cases storeFile_unique b1 l1
  cases storeFile_unique b2 l2
  have := inside_fold c1 c2 h
  have hb : fold '\\' = '\\' := (hf _).mpr rfl
  unfold SameFolded at this
  simp only [List.map_append, List.map_cons, hb] at this
  obtain ⟨x1, x2⟩ := back_split (noBack_map hf m1.2.1) (noBack_map hf m2.2.1) this
  obtain ⟨x3, x4⟩ := back_split (noBack_map hf hi1.2.1) (noBack_map hf hi2.2.1) x2
  refine ⟨x3, fun d e hd he => ?_, fun f g hf hg => ?_⟩
  · cases storeDir_unique hd a1; cases storeDir_unique he a2; exact x1
  · cases storeFile_unique hf b1; cases storeFile_unique hg b2; exact x4

/-- Identifiers made of characters that the table tells apart, such as digits and upper-case letters, are told apart. -/
theorem C132_told_apart {fold : Char → Char} {S : Char → Prop} (hS : ∀ a b, S a → S b → fold a = fold b → a = b) {x y : Str} (hx : ∀ c ∈ x, S c)
    (hy : ∀ c ∈ y, S c) (h : SameFolded fold x y) : x = y := by
  unfold SameFolded at h
  induction x generalizing y with
  | nil =>
    cases y with
    | nil => rfl
    | cons d y => cases h
  | cons c x ih =>
    cases y with
    | nil => cases h
    | cons d y =>
      obtain ⟨e, h⟩ := List.cons.inj h
      rw [hS c d (hx c (by simp)) (hy d (by simp)) e, ih (fun c hc => hx c (by simp [hc])) (fun c hc => hy c (by simp [hc])) h]

/-- The debug ids the code makes (src/object_info.rs:126 `breakpad`) are a UUID in upper-case hexadecimal digits, followed by the age in lower-case ones.  A table
that tells apart upper-case digits, and lower-case ones, tells these apart. -/
theorem C132_uuids {fold : Char → Char}
    (hup : ∀ a ∈ str% "0123456789ABCDEF", ∀ b ∈ str% "0123456789ABCDEF", fold a = fold b → a = b)
    (hlow : ∀ a ∈ str% "0123456789abcdef", ∀ b ∈ str% "0123456789abcdef", fold a = fold b → a = b)
    {u v x y : Str} (hu : ∀ c ∈ u, c ∈ str% "0123456789ABCDEF") (hv : ∀ c ∈ v, c ∈ str% "0123456789ABCDEF")
    (hx : ∀ c ∈ x, c ∈ str% "0123456789abcdef") (hy : ∀ c ∈ y, c ∈ str% "0123456789abcdef")
    (hl : u.length = 32 ∧ v.length = 32) (h : SameFolded fold (u ++ x) (v ++ y)) : u = v ∧ x = y := by
  unfold SameFolded at h
  simp only [List.map_append] at h
  obtain ⟨h1, h2⟩ := List.append_inj h (by simp [hl.1, hl.2])
  exact ⟨C132_told_apart (S := (· ∈ str% "0123456789ABCDEF")) (fun a b ha hb => hup a ha b hb) hu hv h1,
    C132_told_apart (S := (· ∈ str% "0123456789abcdef")) (fun a b ha hb => hlow a ha b hb) hx hy h2⟩

/-! ## The calls -/

theorem fold_opening (fold : Char → Char) (fo : FileOutput) : (opening fo).map (foldTodo fold) = opening (foldDest fold fo) := by
  cases fo <;> rfl

/-- Folded calls are those of a machine that treats the folded destination as this one does the destination. -/
theorem fold_todoTo (fold : Char → Char) (io : IoEnv) (text : Res Str) (fo : FileOutput) :
    (todoTo io text fo).2.map (foldTodo fold) =
      (todoTo { io with create := fun _ => opens io fo, room := fun _ => io.room fo } text (foldDest fold fo)).2 := by
  have ho : opens { io with create := fun _ => opens io fo, room := fun _ => io.room fo } (foldDest fold fo) = opens io fo := by
    cases fo <;> rfl
  unfold todoTo
  rw [ho]
  split
  · cases text with
    | ok t => simp only [List.map_append, fold_opening]; rfl
    | err m => exact fold_opening fold fo
    | panic => exact fold_opening fold fo
  · rfl

theorem fold_dest (fold : Char → Char) {t : Todo} {fo : FileOutput} (h : (foldTodo fold t).dest = some fo) :
    ∃ fo0, t.dest = some fo0 ∧ fo = foldDest fold fo0 := by
  cases t with
  | mkdirs d => cases h
  | create p => cases h; exact ⟨_, rfl, rfl⟩
  | write f pos b => cases h; exact ⟨_, rfl, rfl⟩

theorem along_fold_to {fold : Char → Char} {io : IoEnv} {extra : Option (List Str)} {o : ObjectInfo} (hch : ∀ t, (io.chunks t).flatten = Utf8.encode t)
    {fo fo' : FileOutput} {old c : Option Bytes} (hc : Partway extra o fo old c) (hs : fo = foldDest fold fo' → (∀ p, fo ≠ .path p) → c = old) :
    Along fo (Partway extra o fo old) ((todoTo io (o.display extra) fo').2.map (foldTodo fold)) c := by
  rw [fold_todoTo]
  exact along_todoTo (io := { io with create := fun _ => opens io fo', room := fun _ => io.room fo' }) hch hc hs

theorem along_fold_store {fold : Char → Char} {io : IoEnv} {extra : Option (List Str)} {o : ObjectInfo}
    (hch : ∀ t, (io.chunks t).flatten = Utf8.encode t) {fo : FileOutput} {p : Str} {old c : Option Bytes} (hc : Partway extra o fo old c) :
    Along fo (Partway extra o fo old) ((todoStore io (o.display extra) p).2.map (foldTodo fold)) c := by
  unfold todoStore
  split
  · exact hc
  · split
    · refine ⟨hc, fun _ => hc, along_fold_to hch hc (fun h h' => absurd h (h' _))⟩
    · exact hc

/-- A stream is not touched by writing in the store. -/
theorem fold_store_stream {fold : Char → Char} {io : IoEnv} {text : Res Str} {p : Str} {fo : FileOutput} (h : ∀ p, fo ≠ .path p) (c : Option Bytes) :
    finish fo ((todoStore io text p).2.map (foldTodo fold)) c = c := by
  have hopen : ∀ q c, finish fo (opening (.path q)) c = c := by
    intro q c
    simp only [opening, finish, Todo.after, if_neg (h q)]
  unfold todoStore
  split
  · rfl
  · split
    · simp only [List.map_cons, foldTodo, finish, Todo.after, fold_todoTo]
      unfold todoTo
      split
      · cases text with
        | ok t =>
          simp only [foldDest, finish_append, hopen, finish, Todo.after, if_neg (h _)]
        | err m => exact hopen _ _
        | panic => exact hopen _ _
      · rfl
    · rfl

theorem along_end {fo : FileOutput} {P : Option Bytes → Prop} {ts : List Todo} {c : Option Bytes} (h : Along fo P ts c) : P (finish fo ts c) := by
  induction ts generalizing c with
  | nil => exact h
  | cons t ts ih => exact ih h.2.2

theorem along_folded {fold : Char → Char} {io : IoEnv} {extra : Option (List Str)} {out : Out} {checkCfi : Bool} {o : ObjectInfo}
    (hch : ∀ t, (io.chunks t).flatten = Utf8.encode t) (fo : FileOutput) (old : Option Bytes) :
    Along fo (Partway extra o fo old) (foldedCalls fold io extra out checkCfi o) old := by
  unfold foldedCalls callsOf todoOf
  split
  · exact .inl rfl
  · simp only
    cases (destinations out o).2 with
    | none =>
      simp only
      cases (destinations out o).1 with
      | none => exact .inl rfl
      | some fo' => exact along_fold_to hch (.inl rfl) (fun _ _ => rfl)
    | some p =>
      have hs := along_fold_store (fold := fold) (io := io) (extra := extra) (o := o) hch (fo := fo) (p := p) (old := old) (c := old) (.inl rfl)
      simp only
      cases (todoStore io (o.display extra) p).1 with
      | ok u =>
        simp only
        cases (destinations out o).1 with
        | none => exact hs
        | some fo' =>
          simp only [List.map_append]
          exact along_append hs (along_fold_to hch (along_end hs) (fun _ h => fold_store_stream h old))
      | err m => exact hs
      | panic => exact hs

/-- When nothing goes wrong, the place in the store has received the whole text when all the calls are made. -/
theorem finish_folded {fold : Char → Char} {io : IoEnv} {extra : Option (List Str)} {out : Out} {checkCfi : Bool} {o : ObjectInfo} {t p : Str}
    (hs : PlainStore out) (hn : WinProper o.fileName) (hi : WinProper o.debugId) (hcfi : checkCfi = true → o.stack ≠ []) (ht : o.display extra = .ok t)
    (hch : (io.chunks t).flatten = Utf8.encode t) (hm : ∀ d, io.mkdirs d = true) (hc : ∀ p, io.create p = true)
    (hr : ∀ fo, (Utf8.encode t).length ≤ io.room fo) (hp : (destinations out o).2 = some p) (c : Option Bytes) :
    finish (.path (p.map fold)) (foldedCalls fold io extra out checkCfi o) c = some (Utf8.encode t) := by
  have hto : ∀ fo, todoTo io (.ok t) fo = (.ok (), opening fo ++ [.write fo 0 (Utf8.encode t)]) := by
    intro fo
    have ho : opens io fo = true := by cases fo <;> first | rfl | exact hc _
    unfold todoTo
    rw [if_pos ho]
    simp only [dump_fits (cap := io.capacity) (cs := io.chunks t) (room := io.room fo) (by rw [hch]; exact hr fo), hch, if_true]
  have hfin : ∀ fo c, (finish (.path (p.map fold)) ((opening fo ++ [Todo.write fo 0 (Utf8.encode t)]).map (foldTodo fold)) c =
      if FileOutput.path (p.map fold) = foldDest fold fo then some (Utf8.encode t) else c) := by
    intro fo c
    simp only [List.map_append, fold_opening, List.map_cons, List.map_nil, foldTodo, finish_append, finish, Todo.after]
    by_cases e : FileOutput.path (p.map fold) = foldDest fold fo
    · rw [if_pos e, if_pos e, ← e]
      simp [opening, finish, Todo.after, Output.writeSeen, Output.writeAt]
    · rw [if_neg e, if_neg e]
      cases fo with
      | path q =>
        have e' : ¬ FileOutput.path (p.map fold) = .path (q.map fold) := e
        simp only [foldDest, opening, finish, Todo.after, if_neg e']
      | stdout => rfl
      | stderr => rfl
  obtain ⟨d, hd⟩ : ∃ d, parent p = some d := by
    obtain ⟨dir, h1, h2, rfl⟩ := dest_store hp
    exact store_parent (hs _ h1 h2) hn hi
  have hst : todoStore io (.ok t) p = (.ok (), .mkdirs d :: (opening (.path p) ++ [.write (.path p) 0 (Utf8.encode t)])) := by
    unfold todoStore
    rw [hd]
    simp only [hm d, if_true, hto]
  unfold foldedCalls callsOf todoOf
  rw [if_neg (by
    intro h
    simp only [ObjectInfo.hasStack, Bool.not_not, Bool.and_eq_true, List.isEmpty_iff] at h
    exact hcfi h.1 h.2)]
  simp only [hp, ht, hst]
  cases (destinations out o).1 with
  | none =>
    exact (hfin (.path p) c).trans (if_pos rfl)
  | some fo =>
    simp only [hto]
    rw [List.map_append, finish_append, hfin]
    split
    · rfl
    · exact (hfin (.path p) c).trans (if_pos rfl)

/-! ## Runs -/

/-- A place in the store, as the disk sees it, is asked for by modules of one debug id only. -/
theorem folded_place_id {fold : Char → Char} (hf : Folding fold) {config : Config} {T : Threads.Env} {dir : Str} (hd : dir ≠ []) (hs : PlainStore config.output)
    (hstore : config.output = .store dir ∨ ∃ fo, config.output = .fileAndStore fo dir ∧
      ∀ l o, Threads.MadeOnce T l o → ∀ p, InStore dir o.fileName o.debugId p → foldDest fold fo ≠ foldDest fold (.path p))
    (hname : ∀ l o, Threads.MadeOnce T l o → WinProper o.fileName ∧ WinProper o.debugId)
    (hids : ∀ l o l' o', Threads.MadeOnce T l o → Threads.MadeOnce T l' o' → SameFolded fold o.debugId o'.debugId → o.debugId = o'.debugId)
    {l : List Nat} {o : ObjectInfo} (hm : Threads.MadeOnce T l o) {p : Str} (hp : InStore dir o.fileName o.debugId p)
    {l' : List Nat} {o' : ObjectInfo} (hm' : Threads.MadeOnce T l' o') {fo' : FileOutput}
    (hreq : Requested config.output o' fo') (he : foldDest fold (.path p) = foldDest fold fo') :
    o.debugId = o'.debugId ∧ ∃ p', fo' = .path p' ∧ InStore dir o'.fileName o'.debugId p' := by
  have hst : config.output = .store dir ∨ ∃ fo, config.output = .fileAndStore fo dir := by
    rcases hstore with h | ⟨fo, h, _⟩
    · exact .inl h
    · exact .inr ⟨fo, h⟩
  cases hreq with
  | file h =>
    exfalso
    rcases hstore with e | ⟨fo, e, hfo⟩
    · rcases h with h | ⟨d', h⟩ <;> rw [e] at h <;> cases h
    · rcases h with h | ⟨d', h⟩ <;> rw [e] at h <;> cases h
      exact hfo _ _ hm p hp he.symm
  | store hd' hne hp' =>
    have : ∀ d', (config.output = .store d' ∨ ∃ fo, config.output = .fileAndStore fo d') → d' = dir := by
      rintro d' (e | ⟨fo, e⟩) <;> rcases hst with e' | ⟨fo', e'⟩ <;> rw [e] at e' <;> cases e' <;> rfl
    cases this _ hd'
    refine ⟨hids _ _ _ _ hm hm' ?_, _, rfl, hp'⟩
    exact (C132_places hf (hs _ hst hd) (hname _ _ hm).1 (hname _ _ hm').1 (hname _ _ hm).2 (hname _ _ hm').2 hp hp'
      (by simp only [foldDest, FileOutput.path.injEq] at he; exact he)).1

/-- What is made of inputs whose identifiers are told apart has identifiers that are told apart. -/
theorem made_ids {fold : Char → Char} {T : Threads.Env}
    (hids : ∀ i j oi oj, T.parse i = .ok oi → T.parse j = .ok oj → SameFolded fold oi.debugId oj.debugId → oi.debugId = oj.debugId)
    (l : List Nat) (o : ObjectInfo) (l' : List Nat) (o' : ObjectInfo) (h : Threads.MadeOnce T l o) (h' : Threads.MadeOnce T l' o')
    (he : SameFolded fold o.debugId o'.debugId) : o.debugId = o'.debugId := by
  have key : ∀ {l o}, Threads.Made T l o → ∃ i oi, T.parse i = .ok oi ∧ oi.debugId = o.debugId := by
    intro l o h
    cases h with
    | one f o ho => exact ⟨f, o, ho, rfl⟩
    | more f l o p c ho _ hm => exact ⟨f, o, ho, (merge_ok hm).2.symm⟩
  obtain ⟨i, oi, a1, a2⟩ := key h.2.2
  obtain ⟨j, oj, b1, b2⟩ := key h'.2.2
  rw [← a2, ← b2] at he ⊢
  exact hids i j oi oj a1 b1 he

/-- **C132, the store.** A run over several files with a store, on a disk that does not tell apart names that differ in case only: every input can be read,
nothing goes wrong with writing, and debug ids differ in more than case.  When the run ends, each input has its module in the store, made of exactly the
inputs with the same debug id, and what is found at its place is its complete text. -/
theorem C132_stored (env : Env) {fold : Char → Char} (hfold : Folding fold) (extra : Option (List Str)) (config : Config) (files : List Str)
    (ws : Nat → Cache.World) (orders : Orders) (out : Output.World) (mapping : Option (List Mapping.Generator)) (arch : Str)
    (hlen : files.length ≠ 1) (horder : ∀ t, (orders.results t).Perm t) (hplain : PlainStore config.output)
    (hparse : ∀ (i : Nat) f, files[i]? = some f → ∃ o, (parseInput env config mapping arch f (ws i)).1 = .ok o ∧ WinProper o.fileName ∧ WinProper o.debugId)
    (hids : ∀ (i j : Nat) f g oi oj, files[i]? = some f → files[j]? = some g → (parseInput env config mapping arch f (ws i)).1 = .ok oi →
      (parseInput env config mapping arch g (ws j)).1 = .ok oj → SameFolded fold oi.debugId oj.debugId → oi.debugId = oj.debugId)
    (hworks : Works env extra config (threads env extra config files ws orders mapping arch out))
    (dir : Str) (hd : dir ≠ [])
    (hstore : config.output = .store dir ∨ ∃ fo, config.output = .fileAndStore fo dir ∧
      ∀ l o, Threads.MadeOnce (threads env extra config files ws orders mapping arch out) l o →
        ∀ p, InStore dir o.fileName o.debugId p → foldDest fold fo ≠ foldDest fold (.path p))
    (m : Threads.Moment) (h : FoldedMoments env fold extra config files ws orders mapping arch out m)
    (hret : m.s.Returned (threads env extra config files ws orders mapping arch out))
    (i : Nat) (f : Str) (hi : files[i]? = some f) (oi : ObjectInfo) (hoi : (parseInput env config mapping arch f (ws i)).1 = .ok oi) :
    ∃ l o t p, Threads.MadeOnce (threads env extra config files ws orders mapping arch out) l o ∧
      (∀ j, j ∈ l ↔ ∃ g oj, files[j]? = some g ∧ (parseInput env config mapping arch g (ws j)).1 = .ok oj ∧ oj.debugId = oi.debugId) ∧
      o.debugId = oi.debugId ∧ o.display extra = .ok t ∧ InStore dir o.fileName o.debugId p ∧ m.out.files (p.map fold) = some (Utf8.encode t) := by
  have hname : ∀ l o, Threads.MadeOnce (threads env extra config files ws orders mapping arch out) l o → WinProper o.fileName ∧ WinProper o.debugId :=
    fun l o hm => threads_names (names_of hparse) hm.2.2
  have hT : ∀ j g, files[j]? = some g → (threads env extra config files ws orders mapping arch out).parse j =
      (parseInput env config mapping arch g (ws j)).1 := fun j g hg => threads_parse hg
  have hTid : ∀ i j oi oj, (threads env extra config files ws orders mapping arch out).parse i = .ok oi →
      (threads env extra config files ws orders mapping arch out).parse j = .ok oj → SameFolded fold oi.debugId oj.debugId → oi.debugId = oj.debugId := by
    intro i j oi oj h1 h2 he
    cases hi : files[i]? with
    | none => simp only [threads, hi] at h1; cases h1
    | some f =>
      cases hj : files[j]? with
      | none => simp only [threads, hj] at h2; cases h2
      | some g => rw [hT i f hi] at h1; rw [hT j g hj] at h2; exact hids i j f g oi oj hi hj h1 h2 he
  have hst : ∀ l o, Threads.MadeOnce (threads env extra config files ws orders mapping arch out) l o →
      (threads env extra config files ws orders mapping arch out).store o = .ok () := by
    intro l o hm
    obtain ⟨t, ht, hroom⟩ := hworks.prints l o hm
    obtain ⟨w', h1, _⟩ := store_complete env.io extra config.output config.checkCfi o out hplain (hname _ _ hm).1 (hname _ _ hm).2
      (fun hc => hworks.cfi hc _ _ hm) ht (hworks.chunks t) hworks.mkdirs (fun p _ => hworks.create p) (fun fo _ => hroom fo)
    simp only [threads, h1]
  have hs := Threads.moments_reach h
  obtain ⟨_, hmods⟩ := Threads.C49_once (threads env extra config files ws orders mapping arch out) horder m.s hs
  have hcount := Threads.C50_complete (threads env extra config files ws orders mapping arch out) horder hlen (by
      intro j hj
      have hj' : j < files.length := hj
      obtain ⟨o, h1, _⟩ := hparse j files[j] (List.getElem?_eq_getElem hj')
      exact ⟨o, by rw [hT j _ (List.getElem?_eq_getElem hj')]; exact h1⟩)
    hst m.s hs hret i (List.getElem?_eq_some_iff.mp hi).1 oi.debugId ⟨oi, by rw [hT i f hi]; exact hoi, rfl⟩
  obtain ⟨d, hdlog, hdid⟩ := List.mem_map.mp (List.count_pos_iff.mp (show 0 < (m.s.log.map fun d => d.info.debugId).count oi.debugId by omega))
  obtain ⟨m1, m2, m3⟩ := hmods d hdlog
  have hm : Threads.MadeOnce (threads env extra config files ws orders mapping arch out) d.src d.info := ⟨m2, fun f hf => ((m3 f).mp hf).1, m1⟩
  have hso : config.output = .store dir ∨ ∃ fo, config.output = .fileAndStore fo dir := by
    rcases hstore with h | ⟨fo, h, _⟩
    · exact .inl h
    · exact .inr ⟨fo, h⟩
  have hp : InStore dir d.info.fileName d.info.debugId (placeOf dir d.info) := (inStore_iff (hplain dir hso hd) (hname _ _ hm).1 (hname _ _ hm).2).mpr rfl
  have hreq : Requested config.output d.info (.path (placeOf dir d.info)) := .store hso hd hp
  have hg := Threads.moments_going_of (env := threads env extra config files ws orders mapping arch out)
    (req := fun o fo => ∃ fo0, Requested config.output o fo0 ∧ fo = foldDest fold fo0)
    (part := fun o fo => Partway extra o fo (out.seen fo))
    (fin := fun o fo => finish fo (foldedCalls fold env.io extra config.output config.checkCfi o) (out.seen fo))
    horder (fun _ _ hm _ ht _ hf => by
      obtain ⟨u, hu, rfl⟩ := List.mem_map.mp ht
      obtain ⟨fo0, h1, h2⟩ := fold_dest fold hf
      exact ⟨fo0, todoOf_dest hplain (hname _ _ hm).1 (hname _ _ hm).2 hu h1, h2⟩)
    (fo := foldDest fold (.path (placeOf dir d.info))) (fun o => ⟨along_folded hworks.chunks _ _, rfl⟩)
    (fun l o l' o' a b c e => by
      obtain ⟨f1, c1, c2⟩ := c
      obtain ⟨f2, e1, e2⟩ := e
      exact (folded_place_id hfold hd hplain hstore hname (made_ids hTid) hm hp a c1 c2).1.symm.trans
        (folded_place_id hfold hd hplain hstore hname (made_ids hTid) hm hp b e1 e2).1) h
  obtain ⟨t, t1, hroom⟩ := hworks.prints _ _ hm
  have hfin := (hg.done d hdlog ⟨_, hreq, rfl⟩).2
  have hdest : (destinations config.output d.info).2 = some (placeOf dir d.info) := by
    rcases hso with e | ⟨fo, e⟩ <;> rw [e] <;> exact symStorePath_of_ne hd
  refine ⟨d.src, d.info, t, _, hm, fun j => ?_, hdid, t1, hp, ?_⟩
  · rw [m3 j, hdid]
    constructor
    · rintro ⟨hj, o, h1, h2⟩
      have hj' : j < files.length := hj
      rw [hT j _ (List.getElem?_eq_getElem hj')] at h1
      exact ⟨_, o, List.getElem?_eq_getElem hj', h1, h2⟩
    · rintro ⟨g, o, hg, h1, h2⟩
      exact ⟨(List.getElem?_eq_some_iff.mp hg).1, o, by rw [hT j g hg]; exact h1, h2⟩
  · exact hfin.trans (finish_folded hplain (hname _ _ hm).1 (hname _ _ hm).2 (fun hc => hworks.cfi hc _ _ hm) t1 (hworks.chunks t) hworks.mkdirs
      hworks.create hroom hdest _)

/-- **C132, at every moment** of the work of the threads, and so also when the process is killed or crashes: what is found at a place of the store is what was
found there before, or a beginning of the symbol file of a module with the debug id of the place. -/
theorem C132_moments (env : Env) {fold : Char → Char} (hfold : Folding fold) (extra : Option (List Str)) (config : Config) (files : List Str)
    (ws : Nat → Cache.World) (orders : Orders) (out : Output.World) (mapping : Option (List Mapping.Generator)) (arch : Str)
    (horder : ∀ t, (orders.results t).Perm t) (hplain : PlainStore config.output)
    (hnames : ∀ (i : Nat) f o, files[i]? = some f → (parseInput env config mapping arch f (ws i)).1 = .ok o → WinProper o.fileName ∧ WinProper o.debugId)
    (hids : ∀ (i j : Nat) f g oi oj, files[i]? = some f → files[j]? = some g → (parseInput env config mapping arch f (ws i)).1 = .ok oi →
      (parseInput env config mapping arch g (ws j)).1 = .ok oj → SameFolded fold oi.debugId oj.debugId → oi.debugId = oj.debugId)
    (hparts : ∀ t, (env.io.chunks t).flatten = Utf8.encode t)
    (dir : Str) (hd : dir ≠ [])
    (hstore : config.output = .store dir ∨ ∃ fo, config.output = .fileAndStore fo dir ∧
      ∀ l o, Threads.MadeOnce (threads env extra config files ws orders mapping arch out) l o →
        ∀ p, InStore dir o.fileName o.debugId p → foldDest fold fo ≠ foldDest fold (.path p))
    (m : Threads.Moment) (h : FoldedMoments env fold extra config files ws orders mapping arch out m)
    (l0 : List Nat) (o0 : ObjectInfo) (p : Str) (hm0 : Threads.MadeOnce (threads env extra config files ws orders mapping arch out) l0 o0)
    (hp : InStore dir o0.fileName o0.debugId p) :
    m.out.files (p.map fold) = out.files (p.map fold) ∨
      ∃ l o p' part, Threads.MadeOnce (threads env extra config files ws orders mapping arch out) l o ∧
        o.debugId = o0.debugId ∧ InStore dir o.fileName o.debugId p' ∧ SameFolded fold p p' ∧ m.out.files (p.map fold) = some part ∧
        (part = [] ∨ ∃ t, o.display extra = .ok t ∧ part <+: Utf8.encode t) := by
  have hname : ∀ l o, Threads.MadeOnce (threads env extra config files ws orders mapping arch out) l o → WinProper o.fileName ∧ WinProper o.debugId :=
    fun l o hm => threads_names hnames hm.2.2
  have hT : ∀ j g, files[j]? = some g → (threads env extra config files ws orders mapping arch out).parse j =
      (parseInput env config mapping arch g (ws j)).1 := fun j g hg => threads_parse hg
  have hTid : ∀ i j oi oj, (threads env extra config files ws orders mapping arch out).parse i = .ok oi →
      (threads env extra config files ws orders mapping arch out).parse j = .ok oj → SameFolded fold oi.debugId oj.debugId → oi.debugId = oj.debugId := by
    intro i j oi oj h1 h2 he
    cases hi : files[i]? with
    | none => simp only [threads, hi] at h1; cases h1
    | some f =>
      cases hj : files[j]? with
      | none => simp only [threads, hj] at h2; cases h2
      | some g => rw [hT i f hi] at h1; rw [hT j g hj] at h2; exact hids i j f g oi oj hi hj h1 h2 he
  have hplace := fun {l' : List Nat} {o' : ObjectInfo} (hm' : Threads.MadeOnce (threads env extra config files ws orders mapping arch out) l' o')
    {fo' : FileOutput} (hreq : Requested config.output o' fo') (he : foldDest fold (.path p) = foldDest fold fo') =>
      folded_place_id hfold hd hplain hstore hname (made_ids hTid) hm0 hp hm' hreq he
  have hg := Threads.moments_going_of (env := threads env extra config files ws orders mapping arch out)
    (req := fun o fo => ∃ fo0, Requested config.output o fo0 ∧ fo = foldDest fold fo0)
    (part := fun o fo => Partway extra o fo (out.seen fo))
    (fin := fun o fo => finish fo (foldedCalls fold env.io extra config.output config.checkCfi o) (out.seen fo))
    horder (fun _ _ hm _ ht _ hf => by
      obtain ⟨u, hu, rfl⟩ := List.mem_map.mp ht
      obtain ⟨fo0, h1, h2⟩ := fold_dest fold hf
      exact ⟨fo0, todoOf_dest hplain (hname _ _ hm).1 (hname _ _ hm).2 hu h1, h2⟩)
    (fo := foldDest fold (.path p)) (fun o => ⟨along_folded hparts _ _, rfl⟩)
    (fun l o l' o' a b c e => by
      obtain ⟨f1, c1, c2⟩ := c
      obtain ⟨f2, e1, e2⟩ := e
      exact (hplace a c1 c2).1.symm.trans (hplace b e1 e2).1) h
  have hinv := Threads.reach_inv (env := threads env extra config files ws orders mapping arch out) horder hg.reach
  by_cases hq : ∃ d, m.s.Busy d ∧ ∃ fo0, Requested config.output d.info fo0 ∧ foldDest fold (.path p) = foldDest fold fo0
  · obtain ⟨d, hd', fo0, hr, he⟩ := hq
    have hmade := Threads.madeOnce hinv (Threads.busy_out hd')
    have hpart : Partway extra d.info (foldDest fold (.path p)) (out.seen (foldDest fold (.path p))) (m.out.seen (foldDest fold (.path p))) := by
      rcases hd' with hd' | ⟨i, hd'⟩
      · exact (hg.done d hd' ⟨fo0, hr, he⟩).1
      · exact (hg.going i d hd' ⟨fo0, hr, he⟩).1.now
    obtain ⟨e1, p', rfl, e2⟩ := hplace hmade hr he
    rcases hpart with h2 | ⟨part, h2, h3⟩
    · exact .inl h2
    · exact .inr ⟨_, d.info, p', part, hmade, e1.symm, e2, by simp only [foldDest, FileOutput.path.injEq] at he; exact he, h3, h2⟩
  · exact .inl (hg.quiet fun d hd' ⟨fo0, hr, he⟩ => hq ⟨d, hd', fo0, hr, he⟩)

/-! ## Samples -/

open Run (exOrders exTwo exRun played play played_moments whole)

theorem toUpper_folding : Folding Char.toUpper := by
  intro c
  constructor
  · intro h
    unfold Char.toUpper at h
    split at h
    · exfalso
      rename_i hc
      have h1 := congrArg Char.val h
      have h2 := congrArg UInt32.toNat h1
      have h3 : c.val.toNat ≥ 97 := hc.1
      have h4 : c.val.toNat ≤ 122 := hc.2
      simp only [UInt32.toNat_add] at h2
      have e1 : (4294967264 : UInt32).toNat = 4294967264 := rfl
      have e2 : ('\\'.val).toNat = 92 := rfl
      have e3 : c.toNat = c.val.toNat := rfl
      simp at h2
      omega
    · exact h
  · rintro rfl; rfl

/-- Two builds of one module, and the same build written with another age. -/
example : ¬ SameFolded Char.toUpper (str% "BBA2C6A2F3FD4C4D4C4C44205044422Ea") (str% "BBA2C6A2F3FD4C4D4C4C44205044422E1a") := by
  intro h
  have := C132_uuids (by decide) (by decide) (u := str% "BBA2C6A2F3FD4C4D4C4C44205044422E") (v := str% "BBA2C6A2F3FD4C4D4C4C44205044422E") (x := str% "a")
    (y := str% "1a") (by decide) (by decide) (by decide) (by decide) (by decide) h
  exact absurd this.2 (by decide)

/-- The run of `winThreads`, on such a disk. -/
def winFoldLast : Threads.Moment :=
  played (winThreads winOut) (foldedCalls Char.toUpper winEnv.io none winOut false) Output.emptyWorld (whole exRun)
theorem winFold_run : FoldedMoments winEnv Char.toUpper none (exTwo winOut) winFiles (fun _ => winTwoDisk) exOrders none (str% "x86_64") Output.emptyWorld winFoldLast :=
  played_moments (by decide +kernel)

/-- C132 applied: the symbol file of the first input is found at its place, under the name that the disk knows it by. -/
example : ∃ (o : ObjectInfo) (t p : Str), o.debugId = str% "E1" ∧ o.display none = .ok t ∧ InStore (str% "C:\\store") o.fileName o.debugId p ∧
    winFoldLast.out.files (p.map Char.toUpper) = some (Utf8.encode t) := by
  obtain ⟨l, o, t, p, _, _, h1, h2, h3, h4⟩ := C132_stored winEnv toUpper_folding none (exTwo winOut) winFiles (fun _ => winTwoDisk) exOrders Output.emptyWorld none
    (str% "x86_64") (by decide) (fun t => .refl _) winStore_plain (by
      intro i f hi
      have hf := List.mem_of_getElem? hi
      simp only [winFiles, List.mem_cons, List.not_mem_nil, or_false] at hf
      rcases hf with rfl | rfl
      · exact ⟨winA, winA_eq, winNames.1⟩
      · exact ⟨winB, winB_eq, winNames.2⟩)
    (by
      intro i j f g oi oj hi hj h1 h2
      have key : ∀ (i : Nat) f oi, winFiles[i]? = some f → (parseInput winEnv (exTwo winOut) none (str% "x86_64") f winTwoDisk).1 = .ok oi →
          oi.debugId = str% "E1" ∨ oi.debugId = str% "D1" := by
        intro i f oi hi h
        have hf := List.mem_of_getElem? hi
        simp only [winFiles, List.mem_cons, List.not_mem_nil, or_false] at hf
        rcases hf with rfl | rfl
        · rw [winA_eq] at h; cases h; exact .inl winIds.1
        · rw [winB_eq] at h; cases h; exact .inr winIds.2
      refine C132_told_apart (S := fun c => c = 'E' ∨ c = 'D' ∨ c = '1') (by
        rintro a b (rfl | rfl | rfl) (rfl | rfl | rfl) <;> decide) ?_ ?_
      · rcases key i f oi hi h1 with e | e <;> rw [e] <;> decide
      · rcases key j g oj hj h2 with e | e <;> rw [e] <;> decide)
    winWorks (str% "C:\\store") (by decide) (.inl rfl) winFoldLast winFold_run (by decide +kernel) 0 (str% "C:\\d\\a") rfl winA winA_eq
  exact ⟨o, t, p, h1, h2, h3, h4⟩
example : winFoldLast.out.files (str% "C:\\STORE\\LIB.SO\\E1\\LIB.SO.SYM") ≠ none ∧ winFoldLast.out.files (str% "C:\\store\\lib.so\\E1\\lib.so.sym") = none := by
  decide +kernel

/-- While the run is going on: the file of one module is complete, and that of the other one is there and empty. -/
def winFoldHalf : Threads.Moment :=
  played (winThreads winOut) (foldedCalls Char.toUpper winEnv.io none winOut false) Output.emptyWorld ((whole exRun).take 24)
example : ∀ l0 o0 p, Threads.MadeOnce (winThreads winOut) l0 o0 → InStore (str% "C:\\store") o0.fileName o0.debugId p →
    winFoldHalf.out.files (p.map Char.toUpper) = none ∨ ∃ part, winFoldHalf.out.files (p.map Char.toUpper) = some part ∧
      (part = [] ∨ ∃ t, o0.display none = .ok t ∧ part <+: Utf8.encode t) := by
  intro l0 o0 p hm hp
  have key : ∀ (i : Nat) f oi, winFiles[i]? = some f → (parseInput winEnv (exTwo winOut) none (str% "x86_64") f winTwoDisk).1 = .ok oi → oi = winA ∨ oi = winB := by
    intro i f oi hi h
    have hf := List.mem_of_getElem? hi
    simp only [winFiles, List.mem_cons, List.not_mem_nil, or_false] at hf
    rcases hf with rfl | rfl
    · rw [winA_eq] at h; cases h; exact .inl rfl
    · rw [winB_eq] at h; cases h; exact .inr rfl
  rcases C132_moments winEnv toUpper_folding none (exTwo winOut) winFiles (fun _ => winTwoDisk) exOrders Output.emptyWorld none (str% "x86_64")
    (fun t => .refl _) winStore_plain
    (fun i f o hi ho => by rcases key i f o hi ho with rfl | rfl <;> first | exact winNames.1 | exact winNames.2)
    (fun i j f g oi oj hi hj h1 h2 he => by
      rcases key i f oi hi h1 with rfl | rfl <;> rcases key j g oj hj h2 with rfl | rfl <;> first | rfl | exact absurd he (by unfold SameFolded; decide))
    winWorks.chunks (str% "C:\\store") (by decide) (.inl rfl) winFoldHalf (played_moments (by decide +kernel)) l0 o0 p hm hp with
    h | ⟨l, o, p', part, h1, h2, _, _, h5, h6⟩
  · exact .inl h
  · refine .inr ⟨part, h5, ?_⟩
    have : o = o0 := by
      rcases winMade h1 with rfl | rfl <;> rcases winMade hm with rfl | rfl <;> first | rfl | exact absurd h2 (by decide)
    subst this
    exact h6

/-- A second ELF file, whose debug id and name differ from the other one's in case only. -/
def winCaseEnv : Env :=
  { winEnv with parsers := { winEnv.parsers with
      elf := fun b => match b with | [1, 2] => .ok (Dumper.exObj .elf (str% "e1") (str% "x86_64") (some (str% "Lib.so"))) | _ => winEnv.parsers.elf b } }
def winCaseDisk : Cache.World := Dumper.exWorld [(str% "C:\\d\\a", .file [1] true), (str% "C:\\d\\b", .file [1, 2] true)]
def winCaseThreads : Threads.Env :=
  threads winCaseEnv none (exTwo winOut) winFiles (fun _ => winCaseDisk) exOrders none (str% "x86_64") Output.emptyWorld
def winCaseLast (fold : Char → Char) : Threads.Moment :=
  played winCaseThreads (foldedCalls fold winCaseEnv.io none winOut false) Output.emptyWorld (whole exRun)

/-- **C132, debug ids must differ in more than case.** Two inputs whose debug ids differ in case only get a module each, and the run ends; but the disk holds the
symbol file of one of them only.  On a disk that tells them apart it holds both. -/
theorem C132_case_witness :
    FoldedMoments winCaseEnv Char.toUpper none (exTwo winOut) winFiles (fun _ => winCaseDisk) exOrders none (str% "x86_64") Output.emptyWorld (winCaseLast Char.toUpper) ∧
    (winCaseLast Char.toUpper).s.Returned winCaseThreads ∧ (winCaseLast Char.toUpper).s.log.length = 2 ∧
    (∃ a b, (parseInput winCaseEnv (exTwo winOut) none (str% "x86_64") (str% "C:\\d\\a") winCaseDisk).1 = .ok a ∧
      (parseInput winCaseEnv (exTwo winOut) none (str% "x86_64") (str% "C:\\d\\b") winCaseDisk).1 = .ok b ∧
      a.debugId = str% "E1" ∧ b.debugId = str% "e1" ∧
      ((winCaseLast Char.toUpper).out.files (str% "C:\\STORE\\LIB.SO\\E1\\LIB.SO.SYM") =
        match b.display none with | .ok t => some (Utf8.encode t) | _ => none) ∧
      ((winCaseLast Char.toUpper).out.files (str% "C:\\STORE\\LIB.SO\\E1\\LIB.SO.SYM") ≠
        match a.display none with | .ok t => some (Utf8.encode t) | _ => none)) ∧
    (winCaseLast id).out.files (str% "C:\\store\\lib.so\\E1\\lib.so.sym") ≠ none ∧
    (winCaseLast id).out.files (str% "C:\\store\\Lib.so\\e1\\Lib.so.sym") ≠ none :=
  ⟨played_moments (by decide +kernel), by decide +kernel, by decide +kernel, ⟨_, _, rfl, rfl, by decide, by decide, by decide +kernel, by decide +kernel⟩,
    by decide +kernel, by decide +kernel⟩

/-- **C132, the streams.** What is written to standard output and to standard error is what is written there on any disk, call for call. -/
theorem C132_streams (fold : Char → Char) (io : IoEnv) (extra : Option (List Str)) (out : Out) (checkCfi : Bool) (o : ObjectInfo) (fo : FileOutput)
    (h : fo = .stdout ∨ fo = .stderr) :
    (foldedCalls fold io extra out checkCfi o).filter (fun t => decide (t.dest = some fo)) =
      (callsOf io extra out checkCfi o).filter fun t => decide (t.dest = some fo) := by
  unfold foldedCalls
  induction callsOf io extra out checkCfi o with
  | nil => rfl
  | cons t ts ih =>
    rw [List.map_cons, List.filter_cons, List.filter_cons, ih]
    rcases h with rfl | rfl <;> cases t with
    | mkdirs d => rfl
    | create p => rfl
    | write f pos bytes => cases f <;> rfl

/-- The whole module goes to standard output, and there are no calls for standard error. -/
example : ((foldedCalls Char.toUpper winEnv.io none (.file .stdout) false winA).filter fun t => decide (t.dest = some .stdout)).length = 1 ∧
    ((foldedCalls Char.toUpper winEnv.io none (.file .stdout) false winA).filter fun t => decide (t.dest = some .stderr)) = [] := by
  rw [C132_streams Char.toUpper winEnv.io none (.file .stdout) false winA .stdout (.inl rfl),
    C132_streams Char.toUpper winEnv.io none (.file .stdout) false winA .stderr (.inr rfl)]
  decide +kernel

end WinHost
end DumpSyms
