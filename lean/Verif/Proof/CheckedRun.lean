import Verif.Spec.CheckedRun
import Verif.Proof.Checked
import Verif.Proof.Moments
import Verif.Props.Checked
import Verif.Props.Threads
/-!
# The program in a build with overflow checks does the same or panics
-/
namespace DumpSyms
namespace CheckedRun
open Res.Same

theorem fromObject_same {F : Prop} {env : Dumper.Env} (hus : SortsByStart env.us) (o : ObjInput) (n : Str) (pe : Option ObjInput) (pn : Option Str)
    (pl : Platform) (mp : Option (List Mapping.Generator)) (inl : Bool) (hF : F → Small o) :
    Res.Same F (fun o => F → o.symbols.Below) (fromObject env o n pe pn pl mp inl) (Dumper.fromObject env o n pe pn pl mp inl) :=
  Checked.fromObject_same (fun l _ h => (hus l).1.mem_iff.mp h) _ _ _ _ _ _ hF

theorem getPdb_same {F : Prop} {env : Dumper.Env} (hus : SortsByStart env.us) (buf : Bytes) (path name : Str)
    (mp : Option (List Mapping.Generator)) (inl : Bool) (d : Disk) (hF : F → ∀ o, env.parsers.pdb buf = .ok o → Small o) :
    Res.Same F (fun o => F → o.symbols.Below) (getPdbObjectInfo env buf path name mp inl d) (Dumper.getPdbObjectInfo env buf path name mp inl d) := by
  unfold getPdbObjectInfo Dumper.getPdbObjectInfo
  cases hp : env.parsers.pdb buf with
  | error e => exact .rfl' fun _ h => by cases h
  | ok pdb =>
    refine (Res.Same.rfl' (P := fun _ => True) fun _ _ => trivial).bind fun r _ => ?_
    cases r with
    | none => exact fromObject_same hus _ _ _ _ _ _ _ fun h => hF h _ hp
    | some x =>
      obtain ⟨n, b⟩ := x
      dsimp only
      cases env.parsers.pe b with
      | none => exact .rfl' fun _ h => by cases h
      | some q => exact fromObject_same hus _ _ _ _ _ _ _ fun h => hF h _ hp

theorem getPePdb_same {F : Prop} {env : Dumper.Env} (hus : SortsByStart env.us) (buf : Bytes) (path name arch : Str)
    (mp : Option (List Mapping.Generator)) (server : Option Str) (inl : Bool) (w : Cache.World)
    (hF : F → ∀ o, MainObject env buf path arch server w o → Small o) :
    Res.Same F (fun o => F → o.symbols.Below) (getPePdbObjectInfo env buf path name mp server inl w).1
      (Dumper.getPePdbObjectInfo env buf path name mp server inl w).1 ∧
    (getPePdbObjectInfo env buf path name mp server inl w).2 = (Dumper.getPePdbObjectInfo env buf path name mp server inl w).2 := by
  unfold getPePdbObjectInfo Dumper.getPePdbObjectInfo
  cases hs : Cache.getSymServers env.home w.disk server with
  | err m => exact ⟨.rfl' (fun _ h => by cases h), rfl⟩
  | panic => exact ⟨.rfl' (fun _ h => by cases h), rfl⟩
  | ok servers =>
    dsimp only
    cases hr : (WinUtils.getPePdbBuf env.net (Dumper.parsePe env.parsers) env.cwd path buf servers w).1 with
    | err m => exact ⟨.rfl' (fun _ h => by cases h), rfl⟩
    | panic => exact ⟨.rfl' (fun _ h => by cases h), rfl⟩
    | ok x =>
      cases x with
      | none => exact ⟨.rfl' (fun _ h => by cases h), rfl⟩
      | some y =>
        obtain ⟨pe, pb, pn⟩ := y
        dsimp only
        cases hp : env.parsers.pdb pb with
        | error m => exact ⟨.rfl' (fun _ h => by cases h), rfl⟩
        | ok o => exact ⟨fromObject_same hus _ _ _ _ _ _ _ fun h => hF h o (.found servers o pe pb pn hs hr hp), rfl⟩

theorem getObjectInfo_same {F : Prop} {env : Dumper.Env} (hus : SortsByStart env.us) (buf : Bytes) (path name : Str)
    (mp : Option (List Mapping.Generator)) (arch : Str) (server : Option Str) (inl : Bool) (w : Cache.World)
    (hF : F → ∀ o, MainObject env buf path arch server w o → Small o) :
    Res.Same F (fun o => F → o.symbols.Below) (getObjectInfo env buf path name mp arch server inl w).1
      (Dumper.getObjectInfo env buf path name mp arch server inl w).1 ∧
    (getObjectInfo env buf path name mp arch server inl w).2 = (Dumper.getObjectInfo env buf path name mp arch server inl w).2 := by
  unfold getObjectInfo Dumper.getObjectInfo
  cases env.parsers.peek buf with
  | other => exact ⟨.rfl' (fun _ h => by cases h), rfl⟩
  | elf =>
    refine ⟨?_, rfl⟩
    show Res.Same _ _ (fromElf _ _ _ _ _ _) (Dumper.fromElf _ _ _ _ _ _)
    unfold fromElf Dumper.fromElf
    cases h : env.parsers.elf buf with
    | error e => exact .rfl' fun _ h => by cases h
    | ok o => exact fromObject_same hus _ _ _ _ _ _ _ fun hf => hF hf o (.elf o h)
  | machO =>
    refine ⟨?_, rfl⟩
    show Res.Same _ _ (fromMacho _ _ _ _ _ _) (Dumper.fromMacho _ _ _ _ _ _)
    unfold fromMacho Dumper.fromMacho
    cases h : env.parsers.archive buf with
    | error e => exact .rfl' fun _ h => by cases h
    | ok l =>
      refine (Res.Same.rfl' (P := fun r => Dumper.selectObject arch l = .ok r) fun _ h => h).bind fun r hr => ?_
      cases r with
      | none => exact .rfl' fun _ h => by cases h
      | some o => exact fromObject_same hus _ _ _ _ _ _ _ fun hf => hF hf o (.macho l o h hr)
  | pdb => exact ⟨getPdb_same hus _ _ _ _ _ _ fun hf o ho => hF hf o (.pdb o ho), rfl⟩
  | pe =>
    obtain ⟨h1, h2⟩ := getPePdb_same (F := F) hus buf path name arch mp server inl w hF
    dsimp only
    rcases h1 with ⟨hn, hc⟩ | ⟨hc, hp⟩
    · rw [hc]
      refine ⟨.inl ⟨hn, rfl⟩, ?_⟩
      rw [h2]
      cases (Dumper.getPePdbObjectInfo env buf path name mp server inl w).1 <;> rfl
    · rw [hc, h2]
      cases hr : (Dumper.getPePdbObjectInfo env buf path name mp server inl w).1 with
      | ok m => exact ⟨.ok (hp m hr), rfl⟩
      | panic => exact ⟨.rfl' (fun _ h => by cases h), rfl⟩
      | err e =>
        refine ⟨?_, rfl⟩
        show Res.Same _ _ (getPeObjectInfo _ _ _) (Dumper.getPeObjectInfo _ _ _)
        unfold getPeObjectInfo Dumper.getPeObjectInfo
        cases h : env.parsers.pe buf with
        | none => exact .rfl' fun _ h => by cases h
        | some q => exact fromObject_same hus _ _ _ _ _ _ _ fun hf => hF hf q.1 (.pe q.1 q.2 h)

theorem readSingle_same {env : Dumper.Env} (hus : SortsByStart env.us) (config : Dumper.Config) (path : Str) (w : Cache.World) :
    Res.Same (SmallFile env config path w) (fun _ => True) (readSingle env config path w).1 (Dumper.readSingle env config path w).1 ∧
    (readSingle env config path w).2 = (Dumper.readSingle env config path w).2 := by
  unfold readSingle Dumper.readSingle
  cases hn : Utils.getFilename path with
  | err m => exact ⟨.rfl' fun _ _ => trivial, rfl⟩
  | panic => exact ⟨.rfl' fun _ _ => trivial, rfl⟩
  | ok name =>
    dsimp only
    cases hb : (Dumper.getFromId env config path name w).1 with
    | err m => exact ⟨.rfl' fun _ _ => trivial, rfl⟩
    | panic => exact ⟨.rfl' fun _ _ => trivial, rfl⟩
    | ok buf =>
      dsimp only
      cases hp : Dumper.prepare env config with
      | err m => exact ⟨.rfl' fun _ _ => trivial, rfl⟩
      | panic => exact ⟨.rfl' fun _ _ => trivial, rfl⟩
      | ok x =>
        obtain ⟨mp, arch⟩ := x
        obtain ⟨h1, h2⟩ := getObjectInfo_same (F := SmallFile env config path w) hus buf path name mp arch config.symbolServer config.emitInlines
          (Dumper.getFromId env config path name w).2 fun hf o ho => hf name buf mp arch hn hb hp o ho
        exact ⟨h1.mono fun _ _ => trivial, h2⟩

theorem parseInput_same {F : Prop} {env : Dumper.Env} (hus : SortsByStart env.us) (config : Dumper.Config) (mp : Option (List Mapping.Generator))
    (arch path : Str) (w : Cache.World)
    (hF : F → ∀ buf, Files.readFile env.net.cab w.disk path = .ok buf → ∀ o, MainObject env buf path arch none w o → Small o) :
    Res.Same F (fun o => F → o.symbols.Below) (parseInput env config mp arch path w).1 (Dumper.parseInput env config mp arch path w).1 := by
  unfold parseInput Dumper.parseInput
  cases hn : Utils.getFilename path with
  | err m => exact .rfl' fun _ h => by cases h
  | panic => exact .rfl' fun _ h => by cases h
  | ok name =>
    dsimp only
    cases hb : Files.readFile env.net.cab w.disk path with
    | err m => exact .rfl' fun _ h => by cases h
    | panic => exact .rfl' fun _ h => by cases h
    | ok buf => exact (getObjectInfo_same hus buf path name mp arch none config.emitInlines w fun hf o ho => hF hf buf hb o ho).1

/-! ## The threads -/

section
open Threads
variable {T T' : Threads.Env}

/-- The same surroundings, but for inputs that panic when they are parsed. -/
structure Alike (T' T : Threads.Env) : Prop where
  n : T'.n = T.n
  files : T'.files = T.files
  parse : ∀ f, T'.parse f = .panic ∨ T'.parse f = T.parse f
  store : T'.store = T.store
  order : T'.order = T.order
  hash : T'.hash = T.hash

theorem checked_merge_or (order : List (Str × Nat) → List (Str × Nat)) (a b : ObjectInfo) :
    Checked.merge order a b = .panic ∨ Checked.merge order a b = ObjectInfo.merge order a b := by
  have := Checked.merge_same (F := (a.symbols.Below ∧ b.symbols.Below) ∧ a.inlineOrigins.length + b.inlineOrigins.length < M32) order a b
    (fun h => h.1.1) (fun h => h.1.2) (fun h => h.2)
  exact this.or

theorem work_alike (ha : Alike T' T) {s s' : State} {i : Nat} {w w' : W} (h : work T' s i w = some (w', s')) :
    (∃ a b, w' = .panicked a b) ∨ Threads.work T s i w = some (w', s') := by
  obtain ⟨n', files', parse', store', order', hash'⟩ := T'
  obtain ⟨h1, h2, h3, h4, h5, h6⟩ := ha
  dsimp only at h1 h2 h3 h4 h5 h6
  subst h1 h2 h4 h5 h6
  cases w with
  | parsing f =>
    simp only [work, Threads.work] at h ⊢
    rcases h3 f with hp | hp
    · rw [hp] at h; cases h; exact .inl ⟨_, _, rfl⟩
    · rw [hp] at h; exact .inr h
  | merging d =>
    simp only [work, Threads.work] at h ⊢
    by_cases hl : s.locked = true
    · simp [hl] at h
    · by_cases hp : s.poisoned = true
      · simp only [hl, hp, if_true] at h ⊢; exact .inr h
      · simp only [hl, hp] at h ⊢
        cases ht : s.table.lookup d.info.debugId with
        | none => simp only [ht] at h; exact .inr h
        | some prev =>
          simp only [ht] at h ⊢
          rcases checked_merge_or (T.hash (d.src ++ prev.src)) d.info prev.info with hm | hm
          · simp only [hm] at h; left
            cases h; exact ⟨_, _, rfl⟩
          · simp only [hm] at h; exact .inr h
  | sending ds k =>
    right
    cases ds <;> cases k <;> simpa [work, Threads.work, State.hasRoom] using h
  | aborting a b k => right; cases k <;> simpa [work, Threads.work, State.hasRoom] using h
  | _ => exact .inr h

/-- A worker has panicked. -/
def Hurt (s : State) : Prop := ∃ (i : Nat) (a b : List Nat), s.ws[i]? = some (W.panicked a b)

theorem work_joined {s s' : State} {i : Nat} {w w' : W} (h : Threads.work T s i w = some (w', s')) : s'.joined = s.joined := by
  unfold Threads.work at h
  split at h <;> (repeat' split at h) <;> first
    | (cases h; done)
    | (simp only [Option.some.injEq, Prod.mk.injEq] at h; obtain ⟨_, rfl⟩ := h; rfl)

theorem checked_joined {s s' : State} {i : Nat} {w w' : W} (h : work T s i w = some (w', s')) : s'.joined = s.joined := by
  unfold work at h
  split at h
  · (repeat' split at h) <;> first
      | (cases h; done)
      | (simp only [Option.some.injEq, Prod.mk.injEq] at h; obtain ⟨_, rfl⟩ := h; rfl)
  · exact work_joined h

theorem work_done {s : State} {i : Nat} {w : W} (hd : w.done ∨ ∃ a b, w = .panicked a b) : work T s i w = none := by
  cases w <;> simp [W.done] at hd <;> rfl

/-- The workers that have been joined are done, and none is missing. -/
structure Joined (n : Nat) (s : State) : Prop where
  len : s.ws.length = n
  done : ∀ j, j < s.joined → ∃ w, s.ws[j]? = some w ∧ w.done

theorem act_hurt {a : Action} {s s' : State} (hh : Hurt s) (h : act T a s = some s') : Hurt s' := by
  cases a with
  | send =>
    simp only [act, Threads.act] at h
    obtain ⟨i, a, b, hi⟩ := hh
    (repeat' split at h) <;> first
      | (cases h; done)
      | (simp only [Option.some.injEq] at h; subst h; exact ⟨i, a, b, hi⟩)
  | join =>
    simp only [act, Threads.act] at h
    obtain ⟨i, a, b, hi⟩ := hh
    (repeat' split at h) <;> first
      | (cases h; done)
      | (simp only [Option.some.injEq] at h; subst h; exact ⟨i, a, b, hi⟩)
  | worker k =>
    simp only [act] at h
    obtain ⟨i, a, b, hi⟩ := hh
    split at h
    · cases h
    · cases hk : s.ws[k]? with
      | none => simp [hk] at h
      | some w =>
        simp only [hk] at h
        cases hw : work T s k w with
        | none => simp [hw] at h
        | some r =>
          simp only [hw, Option.map_some, Option.some.injEq] at h
          subst h
          refine ⟨i, a, b, ?_⟩
          show (s.ws.set k r.1)[i]? = _
          rw [List.getElem?_set]
          by_cases e : k = i
          · subst e
            rw [hi] at hk; cases hk
            rw [work_done (.inr ⟨a, b, rfl⟩)] at hw; cases hw
          · rw [if_neg e]; exact hi

theorem act_joined {n : Nat} {a : Action} {s s' : State} (hj : Joined n s) (h : act T a s = some s') : Joined n s' := by
  cases a with
  | send =>
    simp only [act, Threads.act] at h
    (repeat' split at h) <;> first
      | (cases h; done)
      | (simp only [Option.some.injEq] at h; subst h; exact ⟨hj.len, hj.done⟩)
  | join =>
    simp only [act, Threads.act] at h
    have key : ∀ w, s.ws[s.joined]? = some w → w.done → Joined n { s with joined := s.joined + 1 } := by
      intro w hw hd
      refine ⟨hj.len, fun j hlt => ?_⟩
      by_cases e : j = s.joined
      · subst e; exact ⟨w, hw, hd⟩
      · have hlt' : j < s.joined + 1 := hlt
        exact hj.done j (by omega)
    split at h
    · cases h
    · split at h
      · cases h
      · split at h
        · simp only [Option.some.injEq] at h; subst h; exact key .ended ‹_› trivial
        · simp only [Option.some.injEq] at h; subst h; exact key (.failed _) ‹_› trivial
        · simp only [Option.some.injEq] at h; subst h; exact ⟨hj.len, hj.done⟩
        · cases h
  | worker k =>
    simp only [act] at h
    split at h
    · cases h
    · cases hk : s.ws[k]? with
      | none => simp [hk] at h
      | some w =>
        simp only [hk] at h
        cases hw : work T s k w with
        | none => simp [hw] at h
        | some r =>
          simp only [hw, Option.map_some, Option.some.injEq] at h
          subst h
          refine ⟨by simpa using hj.len, fun j hlt => ?_⟩
          have hlt' : j < s.joined := by
            have := checked_joined (w' := r.1) (s' := r.2) hw
            show j < s.joined
            rw [← this]; exact hlt
          obtain ⟨v, hv, hd⟩ := hj.done j hlt'
          refine ⟨v, ?_, hd⟩
          show (s.ws.set k r.1)[j]? = _
          rw [List.getElem?_set]
          by_cases e : k = j
          · subst e
            rw [hv] at hk; cases hk
            rw [work_done (.inl hd)] at hw; cases hw
          · rw [if_neg e]; exact hv

theorem act_alike (ha : Alike T' T) {a : Action} {s s' : State} (h : act T' a s = some s') : Hurt s' ∨ Threads.act T a s = some s' := by
  cases a with
  | send => right; simpa [act, Threads.act, State.hasRoom, ha.n] using h
  | join => exact .inr h
  | worker k =>
    simp only [act] at h
    simp only [Threads.act]
    split at h
    · cases h
    · rename_i hc
      rw [if_neg hc]
      cases hk : s.ws[k]? with
      | none => simp [hk] at h
      | some w =>
        simp only [hk] at h ⊢
        cases hw : work T' s k w with
        | none => simp [hw] at h
        | some r =>
          simp only [hw, Option.map_some, Option.some.injEq] at h
          subst h
          rcases work_alike ha (w' := r.1) (s' := r.2) hw with ⟨a, b, hr⟩ | hr
          · left
            refine ⟨k, a, b, ?_⟩
            have : k < s.ws.length := by
              obtain ⟨h, _⟩ := List.getElem?_eq_some_iff.mp hk; exact h
            rw [List.getElem?_set_self this, hr]
          · right; rw [hr]; rfl

variable {calls : ObjectInfo → List Output.Todo} {out : Output.World}

theorem moments_joined {m : Moment} (h : Moments T calls out m) : Joined T.n m.s := by
  induction h with
  | init => exact ⟨by simp [init], fun j hj => by simp [init] at hj⟩
  | @step m m' a _ hg ih =>
    cases a with
    | call i k =>
      simp only [go, Turn.go] at hg
      (repeat' split at hg) <;> first
        | (cases hg; done)
        | (simp only [Option.some.injEq] at hg; subst hg; exact ih)
    | move a =>
      have : ∃ s, act T a m.s = some s ∧ m'.s = s := by
        cases a with
        | worker i =>
          simp only [go] at hg
          split at hg
          · obtain ⟨s, hs, rfl⟩ := Option.map_eq_some_iff.mp hg; exact ⟨s, hs, rfl⟩
          · cases hg
        | send => obtain ⟨s, hs, rfl⟩ := Option.map_eq_some_iff.mp hg; exact ⟨s, hs, rfl⟩
        | join => obtain ⟨s, hs, rfl⟩ := Option.map_eq_some_iff.mp hg; exact ⟨s, hs, rfl⟩
      obtain ⟨s, hs, he⟩ := this
      rw [he]; exact act_joined ih hs

theorem moments_alike (ha : Alike T' T) {m : Moment} (h : Moments T' calls out m) : Hurt m.s ∨ Threads.Moments T calls out m := by
  induction h with
  | init =>
    right
    have : init T' = init T := by simp [init, ha.n, ha.files]
    rw [this]; exact .init
  | @step m m' a _ hg ih =>
    cases a with
    | call i k =>
      rcases ih with ih | ih
      · left
        simp only [go, Turn.go] at hg
        (repeat' split at hg) <;> first
          | (cases hg; done)
          | (simp only [Option.some.injEq] at hg; subst hg; exact ih)
      · exact .inr (.step (.call i k) ih hg)
    | move a =>
      cases a with
      | worker i =>
        simp only [go] at hg
        split at hg
        · rename_i ht
          obtain ⟨s, hs, rfl⟩ := Option.map_eq_some_iff.mp hg
          rcases ih with ih | ih
          · exact .inl (act_hurt ih hs)
          · rcases act_alike ha hs with hh | hh
            · exact .inl hh
            · refine .inr (.step (.move (.worker i)) ih ?_)
              simp only [Turn.go]
              rw [if_pos ht, hh]; rfl
        · cases hg
      | send =>
        obtain ⟨s, hs, rfl⟩ := Option.map_eq_some_iff.mp hg
        rcases ih with ih | ih
        · exact .inl (act_hurt (T := T') (a := .send) ih hs)
        · rcases act_alike (a := .send) ha hs with hh | hh
          · exact .inl hh
          · refine .inr (.step (.move .send) ih ?_)
            simp only [Turn.go]; rw [hh]; rfl
      | join =>
        obtain ⟨s, hs, rfl⟩ := Option.map_eq_some_iff.mp hg
        rcases ih with ih | ih
        · exact .inl (act_hurt (T := T') (a := .join) ih hs)
        · rcases act_alike (a := .join) ha hs with hh | hh
          · exact .inl hh
          · refine .inr (.step (.move .join) ih ?_)
            simp only [Turn.go]; rw [hh]; rfl

theorem returned_alike (ha : Alike T' T) {m : Moment} (h : Moments T' calls out m) (hr : m.s.Returned T') :
    Threads.Moments T calls out m ∧ m.s.Returned T := by
  refine ⟨?_, hr.1, hr.2.1, hr.2.2.trans ha.n⟩
  rcases moments_alike ha h with ⟨i, a, b, hi⟩ | h'
  · exfalso
    have hj := moments_joined h
    obtain ⟨hlt, _⟩ := List.getElem?_eq_some_iff.mp hi
    rw [hj.len] at hlt
    obtain ⟨w, hw, hd⟩ := hj.done i (by rw [hr.2.2]; exact hlt)
    rw [hi] at hw; cases hw
    exact hd
  · exact h'

/-! ## When nothing overflows -/

theorem made_below (hB : ∀ f o, T.parse f = .ok o → o.symbols.Below) {l : List Nat} {p : ObjectInfo} (h : Made T l p)
    (hs : sumBy (originCount T) l < M32) : p.symbols.Below ∧ p.inlineOrigins.length ≤ sumBy (originCount T) l := by
  induction h with
  | one f o ho => exact ⟨hB f o ho, by simp [originCount, ho]⟩
  | more f l o p c ho _ hm ih =>
    rw [sumBy_cons] at hs ⊢
    obtain ⟨h1, h2⟩ := ih (by omega)
    have e : originCount T f = o.inlineOrigins.length := by simp [originCount, ho]
    rcases Checked.merge_same (F := True) (T.hash (f :: l)) o p (fun _ => hB f o ho) (fun _ => h1) (fun _ => by omega) with h | ⟨_, h⟩
    · exact absurd trivial h.1
    · exact ⟨h c hm trivial, by have := merge_origins_length hm; omega⟩

theorem act_eq (ho : T.Ok) (hB : ∀ f o, T.parse f = .ok o → o.symbols.Below) (hs : sumBy (originCount T) (List.range T.files) < M32)
    {s : State} (h : Reachable T s) (a : Action) : act T a s = Threads.act T a s := by
  have hi := reach_inv ho h
  cases a with
  | send => rfl
  | join => rfl
  | worker k =>
    simp only [act, Threads.act]
    by_cases hc : s.crashed = true
    · rw [if_pos hc, if_pos hc]
    rw [if_neg hc, if_neg hc]
    cases hk : s.ws[k]? with
    | none => rfl
    | some w =>
      have : work T s k w = Threads.work T s k w := by
        cases w with
        | merging d =>
          have hw : .merging d ∈ s.ws := List.mem_of_getElem? hk
          simp only [work, Threads.work]
          cases hl : s.table.lookup d.info.debugId with
          | none => rfl
          | some prev =>
            obtain ⟨f, o, rfl, hpo⟩ := hi.sane (.merging d) hw
            have hprev : prev ∈ s.out := mem_out.mpr (.inl ⟨_, lookup_mem hl⟩)
            obtain ⟨hf1, hf2⟩ := mem_holds hi (w := .merging { src := [f], info := o }) hw (f := f) (by simp [W.holds])
            have hsum : sumBy (originCount T) (f :: prev.src) < M32 := Nat.lt_of_le_of_lt
              (sumBy_sub (List.nodup_cons.mpr ⟨fun h => hf2 (src_merged hi hprev h), src_nodup hi hprev⟩) fun g hg => by
                rcases List.mem_cons.mp hg with rfl | hg
                · exact List.mem_range.mpr hf1
                · exact List.mem_range.mpr (merged_lt hi (src_merged hi hprev hg))) hs
            rw [sumBy_cons] at hsum
            obtain ⟨b1, b2⟩ := made_below hB (hi.made prev hprev) (by omega)
            have e : originCount T f = o.inlineOrigins.length := by simp [originCount, hpo]
            have := (Checked.merge_same (F := True) (T.hash ([f] ++ prev.src)) o prev.info (fun _ => hB f o hpo) (fun _ => b1)
              (fun _ => by omega)).eq trivial
            simp only [this]
            cases ObjectInfo.merge (T.hash ([f] ++ prev.src)) o prev.info <;> rfl
        | _ => rfl
      simp only [this]

theorem go_eq (ho : T.Ok) (hB : ∀ f o, T.parse f = .ok o → o.symbols.Below) (hs : sumBy (originCount T) (List.range T.files) < M32)
    {m : Moment} (h : Reachable T m.s) (t : Turn) : go T calls t m = t.go T calls m := by
  cases t with
  | call i k => rfl
  | move a =>
    cases a with
    | worker i => simp only [go, Turn.go]; rw [act_eq ho hB hs h]
    | send => rfl
    | join => rfl

theorem moments_eq (ho : T.Ok) (hB : ∀ f o, T.parse f = .ok o → o.symbols.Below) (hs : sumBy (originCount T) (List.range T.files) < M32)
    {m : Moment} : Moments T calls out m ↔ Threads.Moments T calls out m := by
  constructor <;> intro h
  · induction h with
    | init => exact .init
    | step a _ hg ih => exact .step a ih ((go_eq ho hB hs (moments_reach ih) a).symm.trans hg)
  · induction h with
    | init => exact .init
    | step a hm hg ih => exact .step a ih ((go_eq ho hB hs (moments_reach hm) a).trans hg)

end
end CheckedRun
end DumpSyms
