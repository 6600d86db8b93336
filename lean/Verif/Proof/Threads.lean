import Verif.Model.Threads
/-!
# The steps of a multi-file run, one by one
-/
namespace DumpSyms
namespace Threads

theorem split_at {α : Type} {l : List α} {i : Nat} {w : α} (h : l[i]? = some w) :
    ∃ a b, l = a ++ w :: b ∧ a.length = i ∧ ∀ w', l.set i w' = a ++ w' :: b := by
  induction l generalizing i with
  | nil => simp at h
  | cons x l ih =>
    cases i with
    | zero =>
      simp only [List.getElem?_cons_zero, Option.some.injEq] at h
      subst h
      exact ⟨[], l, rfl, rfl, fun w' => rfl⟩
    | succ i =>
      simp only [List.getElem?_cons_succ] at h
      obtain ⟨a, b, h1, h2, h3⟩ := ih h
      exact ⟨x :: a, b, by rw [h1]; rfl, by simp [h2], fun w' => by rw [List.set_cons_succ, h3]; rfl⟩

/-- The steps (`act`), with the worker that moves singled out. -/
inductive Step (env : Env) (s : State) : State → Prop where
  | send (f : Nat) (fs : List Nat) : s.toSend = f :: fs → s.queue.length < env.n + 1 →
      Step env s { s with queue := s.queue ++ [.get f], toSend := fs }
  | join (w : W) : s.toSend = [] → s.ws[s.joined]? = some w → (w = .ended ∨ ∃ l, w = .failed l) →
      Step env s { s with joined := s.joined + 1 }
  | crash (l k : List Nat) : s.toSend = [] → s.ws[s.joined]? = some (.panicked l k) → Step env s { s with crashed := true }
  | recvGet (a b : List W) (f : Nat) (q : List Msg) : s.ws = a ++ .idle :: b → s.queue = .get f :: q →
      Step env s { s with queue := q, ws := a ++ .parsing f :: b }
  | recvDump (a b : List W) (d : Item) (q : List Msg) : s.ws = a ++ .idle :: b → s.queue = .dump d :: q →
      Step env s { s with queue := q, ws := a ++ .dumping d :: b }
  | recvStop (a b : List W) (q : List Msg) : s.ws = a ++ .idle :: b → s.queue = .stop :: q →
      Step env s { s with queue := q, ws := a ++ .ended :: b }
  | parseOk (a b : List W) (f : Nat) (o : ObjectInfo) : s.ws = a ++ .parsing f :: b → env.parse f = .ok o →
      Step env s { s with ws := a ++ .merging { src := [f], info := o } :: b }
  | parseErr (a b : List W) (f : Nat) (m : Str) : s.ws = a ++ .parsing f :: b → env.parse f = .err m →
      Step env s { s with ws := a ++ .failed [f] :: b }
  | parsePanic (a b : List W) (f : Nat) : s.ws = a ++ .parsing f :: b → env.parse f = .panic →
      Step env s { s with ws := a ++ .panicked [f] [] :: b }
  | mergePoisoned (a b : List W) (d : Item) : s.ws = a ++ .merging d :: b → s.locked = false → s.poisoned = true →
      Step env s { s with ws := a ++ .panicked d.src [] :: b }
  | mergeNew (a b : List W) (d : Item) : s.ws = a ++ .merging d :: b → s.locked = false → s.poisoned = false →
      s.table.lookup d.info.debugId = none →
      Step env s { s with table := tableInsert s.table d.info.debugId d, merged := d.src ++ s.merged, ws := a ++ .check :: b }
  | mergeOk (a b : List W) (d prev : Item) (c : ObjectInfo) : s.ws = a ++ .merging d :: b → s.locked = false →
      s.poisoned = false → s.table.lookup d.info.debugId = some prev → ObjectInfo.merge (env.hash (d.src ++ prev.src)) d.info prev.info = .ok c →
      Step env s { s with
        table := tableInsert (tableRemove s.table d.info.debugId) c.debugId { src := d.src ++ prev.src, info := c }
        merged := d.src ++ s.merged
        ws := a ++ .check :: b }
  | mergeErr (a b : List W) (d prev : Item) (m : Str) : s.ws = a ++ .merging d :: b → s.locked = false →
      s.poisoned = false → s.table.lookup d.info.debugId = some prev → ObjectInfo.merge (env.hash (d.src ++ prev.src)) d.info prev.info = .err m →
      Step env s { s with
        table := tableRemove s.table d.info.debugId
        locked := true
        ws := a ++ .aborting d.src prev.src env.n :: b }
  | mergePanic (a b : List W) (d prev : Item) : s.ws = a ++ .merging d :: b → s.locked = false →
      s.poisoned = false → s.table.lookup d.info.debugId = some prev → ObjectInfo.merge (env.hash (d.src ++ prev.src)) d.info prev.info = .panic →
      Step env s { s with
        table := tableRemove s.table d.info.debugId
        poisoned := true
        ws := a ++ .panicked d.src prev.src :: b }
  | abortSend (a b : List W) (l l' : List Nat) (k : Nat) : s.ws = a ++ .aborting l l' (k + 1) :: b →
      s.queue.length < env.n + 1 →
      Step env s { s with queue := s.queue ++ [.stop], ws := a ++ .aborting l l' k :: b }
  | abortEnd (a b : List W) (l l' : List Nat) : s.ws = a ++ .aborting l l' 0 :: b →
      Step env s { s with locked := false, ws := a ++ .failed l :: b }
  | checkLast (a b : List W) : s.ws = a ++ .check :: b → s.counter = 1 →
      Step env s { s with coordinator := some a.length, ws := a ++ .coord :: b }
  | checkMore (a b : List W) : s.ws = a ++ .check :: b → s.counter ≠ 1 → Step env s { s with ws := a ++ .decr :: b }
  | decr (a b : List W) : s.ws = a ++ .decr :: b → Step env s { s with counter := s.counter - 1, ws := a ++ .idle :: b }
  | coordPoisoned (a b : List W) : s.ws = a ++ .coord :: b → s.locked = false → s.poisoned = true →
      Step env s { s with ws := a ++ .panicked [] [] :: b }
  | coordOne (a b : List W) (k : Str) (d : Item) : s.ws = a ++ .coord :: b → s.locked = false → s.poisoned = false →
      env.order s.table = [(k, d)] → Step env s { s with table := [], locked := true, ws := a ++ .storing d :: b }
  | coordMany (a b : List W) : s.ws = a ++ .coord :: b → s.locked = false → s.poisoned = false →
      (env.order s.table).length ≠ 1 →
      Step env s { s with table := [], locked := true, ws := a ++ .sending ((env.order s.table).map (·.2)) env.n :: b }
  | storeOk (a b : List W) (d : Item) : s.ws = a ++ .storing d :: b → env.store d.info = .ok () →
      Step env s { s with log := d :: s.log, ws := a ++ .sending [] env.n :: b }
  | storeErr (a b : List W) (d : Item) (m : Str) : s.ws = a ++ .storing d :: b → env.store d.info = .err m →
      Step env s { s with log := d :: s.log, locked := false, ws := a ++ .failed [] :: b }
  | storePanic (a b : List W) (d : Item) : s.ws = a ++ .storing d :: b → env.store d.info = .panic →
      Step env s { s with log := d :: s.log, locked := false, poisoned := true, ws := a ++ .panicked [] [] :: b }
  | sendDump (a b : List W) (d : Item) (ds : List Item) (k : Nat) : s.ws = a ++ .sending (d :: ds) k :: b →
      s.queue.length < env.n + 1 → Step env s { s with queue := s.queue ++ [.dump d], ws := a ++ .sending ds k :: b }
  | sendStop (a b : List W) (k : Nat) : s.ws = a ++ .sending [] (k + 1) :: b → s.queue.length < env.n + 1 →
      Step env s { s with queue := s.queue ++ [.stop], ws := a ++ .sending [] k :: b }
  | sendEnd (a b : List W) : s.ws = a ++ .sending [] 0 :: b → Step env s { s with locked := false, ws := a ++ .idle :: b }
  | dumpOk (a b : List W) (d : Item) : s.ws = a ++ .dumping d :: b → env.store d.info = .ok () →
      Step env s { s with log := d :: s.log, ws := a ++ .idle :: b }
  | dumpErr (a b : List W) (d : Item) (m : Str) : s.ws = a ++ .dumping d :: b → env.store d.info = .err m →
      Step env s { s with log := d :: s.log, ws := a ++ .failed [] :: b }
  | dumpPanic (a b : List W) (d : Item) : s.ws = a ++ .dumping d :: b → env.store d.info = .panic →
      Step env s { s with log := d :: s.log, ws := a ++ .panicked [] [] :: b }

theorem hasRoom_iff {env : Env} {s : State} : s.hasRoom env = true ↔ s.queue.length < env.n + 1 := by
  simp [State.hasRoom]

theorem act_step {env : Env} {a : Action} {s s' : State} (h : act env a s = some s') : s.crashed = false ∧ Step env s s' := by
  unfold act at h
  split at h
  · cases h
  · rename_i hcr
    refine ⟨by simpa using hcr, ?_⟩
    cases a with
    | send =>
      simp only at h
      split at h
      · cases h
      · rename_i f fs hts
        split at h
        · rename_i hr; cases h; exact .send f fs hts (hasRoom_iff.mp hr)
        · cases h
    | join =>
      simp only at h
      split at h
      · cases h
      · rename_i hts
        have hts := Decidable.not_not.mp hts
        split at h
        · rename_i hw; cases h; exact .join _ hts hw (.inl rfl)
        · rename_i l hw; cases h; exact .join _ hts hw (.inr ⟨l, rfl⟩)
        · rename_i l k hw; cases h; exact .crash l k hts hw
        · cases h
    | worker i =>
      simp only at h
      split at h
      · cases h
      · rename_i w hw
        obtain ⟨a, b, hws, hlen, hset⟩ := split_at hw
        obtain ⟨r, hr, rfl⟩ := Option.map_eq_some_iff.mp h
        rw [hset]
        cases w with
        | idle =>
          simp only [work] at hr
          split at hr
          · cases hr
          · rename_i f q hq; cases hr; exact .recvGet a b f q hws hq
          · rename_i d q hq; cases hr; exact .recvDump a b d q hws hq
          · rename_i q hq; cases hr; exact .recvStop a b q hws hq
        | parsing f =>
          simp only [work] at hr
          split at hr
          · rename_i o ho; cases hr; exact .parseOk a b f o hws ho
          · rename_i m ho; cases hr; exact .parseErr a b f m hws ho
          · rename_i ho; cases hr; exact .parsePanic a b f hws ho
        | merging d =>
          simp only [work] at hr
          split at hr
          · cases hr
          · rename_i hl
            simp only [Bool.not_eq_true] at hl
            split at hr
            · rename_i hp; cases hr; exact .mergePoisoned a b d hws hl hp
            · rename_i hp
              simp only [Bool.not_eq_true] at hp
              split at hr
              · rename_i ht; cases hr; exact .mergeNew a b d hws hl hp ht
              · rename_i prev ht
                split at hr
                · rename_i c hc; cases hr; exact .mergeOk a b d prev c hws hl hp ht hc
                · rename_i m hc; cases hr; exact .mergeErr a b d prev m hws hl hp ht hc
                · rename_i hc; cases hr; exact .mergePanic a b d prev hws hl hp ht hc
        | aborting l l' k =>
          cases k with
          | zero => simp only [work] at hr; cases hr; exact .abortEnd a b l l' hws
          | succ k =>
            simp only [work] at hr
            split at hr
            · rename_i hrm; cases hr; exact .abortSend a b l l' k hws (hasRoom_iff.mp hrm)
            · cases hr
        | check =>
          simp only [work] at hr
          split at hr
          · rename_i hc; cases hr; rw [← hlen]; exact .checkLast a b hws hc
          · rename_i hc; cases hr; exact .checkMore a b hws hc
        | decr => simp only [work] at hr; cases hr; exact .decr a b hws
        | coord =>
          simp only [work] at hr
          split at hr
          · cases hr
          · rename_i hl
            simp only [Bool.not_eq_true] at hl
            split at hr
            · rename_i hp; cases hr; exact .coordPoisoned a b hws hl hp
            · rename_i hp
              simp only [Bool.not_eq_true] at hp
              split at hr
              · rename_i k d ho; cases hr; exact .coordOne a b k d hws hl hp ho
              · rename_i hne
                cases hr
                refine .coordMany a b hws hl hp ?_
                intro hlen1
                match ho : env.order s.table, hlen1 with
                | [(k, d)], _ => exact hne k d ho
        | storing d =>
          simp only [work] at hr
          split at hr
          · rename_i hs; cases hr; exact .storeOk a b d hws hs
          · rename_i m hs; cases hr; exact .storeErr a b d m hws hs
          · rename_i hs; cases hr; exact .storePanic a b d hws hs
        | sending ds k =>
          cases ds with
          | nil =>
            cases k with
            | zero => simp only [work] at hr; cases hr; exact .sendEnd a b hws
            | succ k =>
              simp only [work] at hr
              split at hr
              · rename_i hrm; cases hr; exact .sendStop a b k hws (hasRoom_iff.mp hrm)
              · cases hr
          | cons d ds =>
            simp only [work] at hr
            split at hr
            · rename_i hrm; cases hr; exact .sendDump a b d ds k hws (hasRoom_iff.mp hrm)
            · cases hr
        | dumping d =>
          simp only [work] at hr
          split at hr
          · rename_i hs; cases hr; exact .dumpOk a b d hws hs
          · rename_i m hs; cases hr; exact .dumpErr a b d m hws hs
          · rename_i hs; cases hr; exact .dumpPanic a b d hws hs
        | ended => simp [work] at hr
        | failed l => simp [work] at hr
        | panicked l k => simp [work] at hr

end Threads
end DumpSyms
