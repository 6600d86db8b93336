import Verif.Model.Writing
import Verif.Props.Output
import Verif.Proof.ThreadsGood
/-!
# Lemmas about writing call by call
-/
namespace DumpSyms
namespace Output

/-- What a destination holds. -/
def World.seen (w : World) : FileOutput → Option Bytes
  | .path p => w.files p
  | .stdout => some w.stdout
  | .stderr => some w.stderr

/-- What a destination holds after a `write` of its contents `c`. -/
def writeSeen (fo : FileOutput) (c : Option Bytes) (pos : Nat) (b : Bytes) : Option Bytes :=
  match fo with
  | .path _ => some (writeAt (c.getD []) pos b)
  | .stdout => some (c.getD [] ++ b)
  | .stderr => some (c.getD [] ++ b)

theorem writeAt_append (c : Bytes) (pos : Nat) (x y : Bytes) :
    writeAt (writeAt c pos x) (pos + x.length) y = writeAt c pos (x ++ y) := by
  have hA : ((c ++ List.replicate (pos - c.length) 0).take pos).length = pos := by
    simp only [List.length_take, List.length_append, List.length_replicate]; omega
  unfold writeAt
  generalize (c ++ List.replicate (pos - c.length) 0).take pos = A at hA
  have h1 : pos + x.length - (A ++ x ++ c.drop (pos + x.length)).length = 0 := by
    simp only [List.length_append]; omega
  have h2 : (A ++ x).length = pos + x.length := by simp [hA]
  rw [h1, List.replicate_zero, List.append_nil, List.take_append_of_le_length (by omega), List.take_of_length_le (by omega), List.drop_append,
    List.drop_eq_nil_of_le (by omega), h2, List.nil_append, List.drop_drop]
  simp only [List.append_assoc, List.length_append]
  congr 3
  congr 1
  omega

theorem writeSeen_append (fo : FileOutput) (c : Option Bytes) (pos : Nat) (x y : Bytes) :
    writeSeen fo (writeSeen fo c pos x) (pos + x.length) y = writeSeen fo c pos (x ++ y) := by
  cases fo <;> simp [writeSeen, writeAt_append]

theorem write_seen (w : World) (fo fo' : FileOutput) (pos : Nat) (b : Bytes) :
    (w.write fo' pos b).seen fo = if fo = fo' then writeSeen fo (w.seen fo) pos b else w.seen fo := by
  cases fo <;> cases fo' <;> simp [World.write, World.seen, writeSeen]
  split <;> simp_all

theorem receive_seen (w : World) (fo fo' : FileOutput) (b : Bytes) :
    (w.receive fo' b).seen fo = if fo = fo' then (match fo with | .path _ => some b | _ => some ((w.seen fo).getD [] ++ b)) else w.seen fo := by
  cases fo <;> cases fo' <;> simp [World.receive, World.seen]

/-- What a destination holds after a call, all of it. -/
def Todo.after (fo : FileOutput) : Todo → Option Bytes → Option Bytes
  | .mkdirs _, c => c
  | .create p, c => if fo = .path p then some [] else c
  | .write fo' pos b, c => if fo = fo' then writeSeen fo c pos b else c

/-- What a destination holds while a call is made, `k` bytes being written. -/
def Todo.during (fo : FileOutput) (k : Nat) : Todo → Option Bytes → Option Bytes
  | .mkdirs _, c => c
  | .create _, c => c
  | .write fo' pos b, c => if fo = fo' then writeSeen fo c pos (b.take k) else c

/-- What a destination holds after some calls. -/
def finish (fo : FileOutput) : List Todo → Option Bytes → Option Bytes
  | [], c => c
  | t :: ts, c => finish fo ts (t.after fo c)

/-- The contents of a destination satisfy `P` all the time while the calls are made. -/
def Along (fo : FileOutput) (P : Option Bytes → Prop) : List Todo → Option Bytes → Prop
  | [], c => P c
  | t :: ts, c => P c ∧ (∀ k, P (t.during fo k c)) ∧ Along fo P ts (t.after fo c)

theorem Along.now {fo : FileOutput} {P : Option Bytes → Prop} {ts : List Todo} {c : Option Bytes} (h : Along fo P ts c) : P c := by
  cases ts with
  | nil => exact h
  | cons t ts => exact h.1

theorem finish_append (fo : FileOutput) (a b : List Todo) (c : Option Bytes) : finish fo (a ++ b) c = finish fo b (finish fo a c) := by
  induction a generalizing c with
  | nil => rfl
  | cons t a ih => exact ih _

theorem along_append {fo : FileOutput} {P : Option Bytes → Prop} {a b : List Todo} {c : Option Bytes} (ha : Along fo P a c)
    (hb : Along fo P b (finish fo a c)) : Along fo P (a ++ b) c := by
  induction a generalizing c with
  | nil => exact hb
  | cons t a ih => exact ⟨ha.1, ha.2.1, ih ha.2.2 hb⟩

theorem make_seen (fo : FileOutput) (k : Nat) (t : Todo) (w : World) :
    (t.make k w).2.seen fo = (match t with
      | .mkdirs d => Todo.after fo (.mkdirs d) (w.seen fo)
      | .create p => Todo.after fo (.create p) (w.seen fo)
      | .write fo' pos b => if fo = fo' then writeSeen fo (w.seen fo) pos (b.take k) else w.seen fo) := by
  cases t with
  | mkdirs d => cases fo <;> rfl
  | create p =>
    simp only [Todo.make, receive_seen, Todo.after]
    split
    · rename_i h; rw [h]
    · rfl
  | write fo' pos b => simp only [Todo.make, write_seen]

theorem finish_make (fo : FileOutput) (k : Nat) (t : Todo) (ts : List Todo) (w : World) :
    finish fo ((t.make k w).1 ++ ts) ((t.make k w).2.seen fo) = finish fo (t :: ts) (w.seen fo) := by
  rw [make_seen]
  cases t with
  | mkdirs d => rfl
  | create p => rfl
  | write fo' pos b =>
    simp only [Todo.make]
    split
    · rename_i hk
      simp only [List.cons_append, List.nil_append, finish, Todo.after]
      by_cases hf : fo = fo'
      · simp only [hf, if_true]
        have := writeSeen_append fo' (w.seen fo') pos (b.take k) (b.drop k)
        rw [List.length_take, Nat.min_eq_left (by omega), List.take_append_drop] at this
        rw [this]
      · simp only [hf, if_false]
    · rename_i hk
      simp only [List.nil_append, finish, Todo.after]
      rw [List.take_of_length_le (by omega)]

theorem along_make {fo : FileOutput} {P : Option Bytes → Prop} (k : Nat) {t : Todo} {ts : List Todo} {w : World}
    (h : Along fo P (t :: ts) (w.seen fo)) : Along fo P ((t.make k w).1 ++ ts) ((t.make k w).2.seen fo) := by
  rw [make_seen]
  obtain ⟨h1, h2, h3⟩ := h
  cases t with
  | mkdirs d => exact h3
  | create p => exact h3
  | write fo' pos b =>
    simp only [Todo.make]
    simp only [Todo.during, Todo.after] at h2 h3
    split
    · rename_i hk
      refine ⟨h2 k, fun j => ?_, ?_⟩
      · simp only [Todo.during]
        by_cases hf : fo = fo'
        · simp only [hf, if_true] at h2 ⊢
          have := writeSeen_append fo' (w.seen fo') pos (b.take k) ((b.drop k).take j)
          rw [List.length_take, Nat.min_eq_left (by omega)] at this
          rw [this, ← List.take_add]
          exact h2 _
        · simp only [hf, if_false] at h2 ⊢; exact h1
      · simp only [Todo.after]
        by_cases hf : fo = fo'
        · simp only [hf, if_true] at h3 ⊢
          have := writeSeen_append fo' (w.seen fo') pos (b.take k) (b.drop k)
          rw [List.length_take, Nat.min_eq_left (by omega), List.take_append_drop] at this
          rw [this]; exact h3
        · simp only [hf, if_false] at h3 ⊢; exact h3
    · rename_i hk
      rw [List.take_of_length_le (by omega)]
      exact h3

/-- The destination a call changes. -/
def Todo.dest : Todo → Option FileOutput
  | .mkdirs _ => none
  | .create p => some (.path p)
  | .write fo _ _ => some fo

theorem make_dest (k : Nat) (t : Todo) (w : World) : ∀ t' ∈ (t.make k w).1, t'.dest = t.dest := by
  intro t' h
  cases t with
  | mkdirs d => cases h
  | create p => cases h
  | write fo pos b =>
    simp only [Todo.make] at h
    split at h
    · simp only [List.mem_singleton] at h; rw [h]; rfl
    · cases h

theorem make_other {fo : FileOutput} {k : Nat} {t : Todo} {w : World} (h : t.dest ≠ some fo) : (t.make k w).2.seen fo = w.seen fo := by
  rw [make_seen]
  cases t with
  | mkdirs d => rfl
  | create p =>
    simp only [Todo.after, Todo.dest, ne_eq, Option.some.injEq] at h ⊢
    rw [if_neg (fun e => h e.symm)]
  | write fo' pos b =>
    simp only [Todo.dest, ne_eq, Option.some.injEq] at h ⊢
    rw [if_neg (fun e => h e.symm)]

/-! ## The calls of `store` -/

theorem todoTo_writeTo (io : IoEnv) (text : Res Str) (fo fo' : FileOutput) (w : World) :
    (todoTo io text fo').1 = (writeTo io text fo' w).1 ∧
    finish fo (todoTo io text fo').2 (w.seen fo) = (writeTo io text fo' w).2.seen fo := by
  unfold todoTo writeTo
  have hopen : ∀ c, finish fo (opening fo') c = if fo = fo' then (match fo with | .path _ => some [] | _ => c) else c := by
    intro c
    cases fo' with
    | path p =>
      simp only [opening, finish, Todo.after]
      split
      · rename_i h; rw [h]
      · rfl
    | stdout => cases fo <;> simp [opening, finish]
    | stderr => cases fo <;> simp [opening, finish]
  split
  · cases text with
    | ok t =>
      refine ⟨rfl, ?_⟩
      simp only [finish_append, hopen, receive_seen, finish, Todo.after]
      by_cases h : fo = fo'
      · subst h
        cases fo <;> simp [writeSeen, writeAt]
      · simp [h]
    | err m =>
      refine ⟨rfl, ?_⟩
      simp only [hopen, receive_seen]
      by_cases h : fo = fo'
      · subst h; cases fo <;> simp [World.seen]
      · simp [h]
    | panic =>
      refine ⟨rfl, ?_⟩
      simp only [hopen, receive_seen]
      by_cases h : fo = fo'
      · subst h; cases fo <;> simp [World.seen]
      · simp [h]
  · exact ⟨rfl, rfl⟩

theorem todoStore_writeStore (io : IoEnv) (text : Res Str) (fo : FileOutput) (p : Str) (w : World) :
    (todoStore io text p).1 = (writeStore io text p w).1 ∧
    finish fo (todoStore io text p).2 (w.seen fo) = (writeStore io text p w).2.seen fo := by
  unfold todoStore writeStore
  cases Path.parent p with
  | none => exact ⟨rfl, rfl⟩
  | some d =>
    simp only
    split
    · obtain ⟨h1, h2⟩ := todoTo_writeTo io text fo (.path p) { w with dirs := d :: w.dirs }
      refine ⟨h1, ?_⟩
      rw [← h2]
      cases fo <;> rfl
    · exact ⟨rfl, rfl⟩

/-- All the calls of `store`, one after the other, do what `store` does. -/
theorem todoOf_store (io : IoEnv) (extra : Option (List Str)) (out : Out) (checkCfi : Bool) (o : ObjectInfo) (fo : FileOutput) (w : World) :
    (todoOf io extra out checkCfi o).1 = (store io extra out checkCfi o w).1 ∧
    finish fo (todoOf io extra out checkCfi o).2 (w.seen fo) = (store io extra out checkCfi o w).2.seen fo := by
  unfold todoOf store
  split
  · exact ⟨rfl, rfl⟩
  · simp only
    cases (destinations out o).2 with
    | none =>
      simp only
      cases (destinations out o).1 with
      | none => exact ⟨rfl, rfl⟩
      | some fo' => exact todoTo_writeTo io _ fo fo' w
    | some p =>
      simp only
      obtain ⟨h1, h2⟩ := todoStore_writeStore io (o.display extra) fo p w
      rw [h1]
      cases h : (writeStore io (o.display extra) p w).1 with
      | ok u =>
        simp only
        cases (destinations out o).1 with
        | none => exact ⟨h1.trans h, h2⟩
        | some fo' =>
          obtain ⟨h3, h4⟩ := todoTo_writeTo io (o.display extra) fo fo' (writeStore io (o.display extra) p w).2
          refine ⟨h3, ?_⟩
          simp only [finish_append]
          rw [h2, h4]
      | err m => exact ⟨h1, h2⟩
      | panic => exact ⟨h1, h2⟩

theorem todoTo_dest {io : IoEnv} {text : Res Str} {fo : FileOutput} {t : Todo} (h : t ∈ (todoTo io text fo).2) : t.dest = some fo := by
  have hopen : ∀ t ∈ opening fo, t.dest = some fo := by
    intro t ht
    cases fo with
    | path p => simp only [opening, List.mem_singleton] at ht; rw [ht]; rfl
    | stdout => cases ht
    | stderr => cases ht
  unfold todoTo at h
  split at h
  · cases text with
    | ok s =>
      simp only [List.mem_append, List.mem_singleton] at h
      rcases h with h | rfl
      · exact hopen t h
      · rfl
    | err m => exact hopen t h
    | panic => exact hopen t h
  · cases h

theorem todoStore_dest {io : IoEnv} {text : Res Str} {p : Str} {t : Todo} (h : t ∈ (todoStore io text p).2) : t.dest = none ∨ t.dest = some (.path p) := by
  unfold todoStore at h
  split at h
  · cases h
  · split at h
    · rcases List.mem_cons.mp h with rfl | h
      · exact .inl rfl
      · exact .inr (todoTo_dest h)
    · cases h

theorem todoOf_dest {io : IoEnv} {extra : Option (List Str)} {out : Out} {checkCfi : Bool} {o : ObjectInfo} {t : Todo} (hn : '/' ∉ o.fileName)
    (h : t ∈ (todoOf io extra out checkCfi o).2) {fo : FileOutput} (hf : t.dest = some fo) : Requested out o fo := by
  rw [requested_iff hn]
  have hstore : ∀ p, (destinations out o).2 = some p → t ∈ (todoStore io (o.display extra) p).2 →
      (destinations out o).1 = some fo ∨ ∃ p, (destinations out o).2 = some p ∧ fo = .path p := by
    intro p hp ht
    rcases todoStore_dest ht with e | e
    · rw [e] at hf; cases hf
    · rw [e] at hf; cases hf; exact .inr ⟨p, hp, rfl⟩
  have hfile : ∀ fo', (destinations out o).1 = some fo' → t ∈ (todoTo io (o.display extra) fo').2 →
      (destinations out o).1 = some fo ∨ ∃ p, (destinations out o).2 = some p ∧ fo = .path p := by
    intro fo' hp ht
    have e := todoTo_dest ht
    rw [e] at hf; cases hf; exact .inl hp
  unfold todoOf at h
  split at h
  · cases h
  · simp only at h
    cases h2 : (destinations out o).2 with
    | none =>
      rw [h2] at h
      simp only at h
      cases h1 : (destinations out o).1 with
      | none => rw [h1] at h; cases h
      | some fo' =>
        rw [h1] at h
        simp only [List.nil_append] at h
        have := hfile fo' h1 h
        rw [h1, h2] at this; exact this
    | some p =>
      rw [h2] at h
      simp only at h
      have hs := hstore p h2
      rw [h2] at hs
      split at h
      · cases h1 : (destinations out o).1 with
        | none => rw [h1] at h hs; exact hs h
        | some fo' =>
          rw [h1] at h hs
          simp only [List.mem_append] at h
          rcases h with h | h
          · exact hs h
          · have := hfile fo' h1 h
            rw [h1, h2] at this; exact this
      · exact hs h

/-- What a destination that held `old` can hold while the text of a module is written to it: what it held before, or a beginning of the
text. -/
def Partway (extra : Option (List Str)) (o : ObjectInfo) (fo : FileOutput) (old c : Option Bytes) : Prop :=
  c = old ∨ ∃ pre, (pre = [] ∨ ∃ t, o.display extra = .ok t ∧ pre <+: Utf8.encode t) ∧
    c = match fo with | .path _ => some pre | _ => some (old.getD [] ++ pre)

theorem along_todoTo {io : IoEnv} {extra : Option (List Str)} {o : ObjectInfo} (hch : ∀ t, (io.chunks t).flatten = Utf8.encode t)
    {fo fo' : FileOutput} {old c : Option Bytes} (hc : Partway extra o fo old c) (hs : fo = fo' → (∀ p, fo ≠ .path p) → c = old) :
    Along fo (Partway extra o fo old) (todoTo io (o.display extra) fo').2 c := by
  have hopen : Along fo (Partway extra o fo old) (opening fo') c := by
    cases fo' with
    | path p =>
      refine ⟨hc, fun _ => hc, ?_⟩
      show Partway extra o fo old _
      simp only [Todo.after]
      split
      · rename_i h; subst h; exact .inr ⟨[], .inl rfl, rfl⟩
      · exact hc
    | stdout => exact hc
    | stderr => exact hc
  unfold todoTo
  split
  · cases ht : o.display extra with
    | err m => exact hopen
    | panic => exact hopen
    | ok t =>
      simp only
      refine along_append hopen ?_
      have hB : (dump (io.room fo') io.capacity (io.chunks t)).2 <+: Utf8.encode t := by
        rw [(dump_spec _ _ _).1, hch]; exact List.take_prefix _ _
      generalize (dump (io.room fo') io.capacity (io.chunks t)).2 = B at hB
      by_cases hf : fo = fo'
      · subst hf
        have key : ∀ B', B' <+: Utf8.encode t → Partway extra o fo old (writeSeen fo (finish fo (opening fo) c) 0 B') := by
          intro B' hB'
          refine .inr ⟨B', .inr ⟨t, ht, hB'⟩, ?_⟩
          cases fo with
          | path p => simp [opening, finish, Todo.after, writeSeen, writeAt]
          | stdout => simp [opening, finish, writeSeen, hs rfl (fun p h => by cases h)]
          | stderr => simp [opening, finish, writeSeen, hs rfl (fun p h => by cases h)]
        have hnow : Partway extra o fo old (finish fo (opening fo) c) := by
          cases fo with
          | path p => exact .inr ⟨[], .inl rfl, by simp [opening, finish, Todo.after]⟩
          | stdout => exact hc
          | stderr => exact hc
        refine ⟨hnow, fun k => ?_, ?_⟩
        · simp only [Todo.during, if_true]
          exact key _ ((List.take_prefix _ _).trans hB)
        · simp only [Along, Todo.after, if_true]
          exact key _ hB
      · have hnow : Partway extra o fo old (finish fo (opening fo') c) := by
          have : finish fo (opening fo') c = c := by
            cases fo' with
            | path p => simp [opening, finish, Todo.after, hf]
            | stdout => rfl
            | stderr => rfl
          rw [this]; exact hc
        refine ⟨hnow, fun k => ?_, ?_⟩
        · simp only [Todo.during, hf, if_false]; exact hnow
        · simp only [Along, Todo.after, hf, if_false]; exact hnow
  · exact hc

theorem along_todoStore {io : IoEnv} {extra : Option (List Str)} {o : ObjectInfo} (hch : ∀ t, (io.chunks t).flatten = Utf8.encode t)
    {fo : FileOutput} {p : Str} {old c : Option Bytes} (hc : Partway extra o fo old c) :
    Along fo (Partway extra o fo old) (todoStore io (o.display extra) p).2 c := by
  unfold todoStore
  split
  · exact hc
  · split
    · exact ⟨hc, fun _ => hc, along_todoTo hch hc (fun h h' => absurd h (h' p))⟩
    · exact hc

/-- While a module is written, each destination holds what it held before or a beginning of the text. -/
theorem along_todoOf {io : IoEnv} {extra : Option (List Str)} {out : Out} {checkCfi : Bool} {o : ObjectInfo}
    (hch : ∀ t, (io.chunks t).flatten = Utf8.encode t) (fo : FileOutput) (old : Option Bytes) :
    Along fo (Partway extra o fo old) (todoOf io extra out checkCfi o).2 old := by
  unfold todoOf
  split
  · exact .inl rfl
  · simp only
    cases (destinations out o).2 with
    | none =>
      simp only
      cases (destinations out o).1 with
      | none => exact .inl rfl
      | some fo' => exact along_todoTo hch (.inl rfl) (fun _ _ => rfl)
    | some p =>
      have hs := along_todoStore (io := io) (extra := extra) (o := o) hch (fo := fo) (p := p) (old := old) (c := old) (.inl rfl)
      simp only
      cases (todoStore io (o.display extra) p).1 with
      | ok u =>
        simp only
        cases (destinations out o).1 with
        | none => exact hs
        | some fo' =>
          refine along_append hs (along_todoTo hch ?_ ?_)
          · have : ∀ {ts c}, Along fo (Partway extra o fo old) ts c → Partway extra o fo old (finish fo ts c) := by
              intro ts
              induction ts with
              | nil => exact id
              | cons t ts ih => exact fun h => ih h.2.2
            exact this hs
          · rintro rfl hfo
            have : ∀ {ts : List Todo} {c}, (∀ t ∈ ts, t.dest ≠ some fo) → finish fo ts c = c := by
              intro ts
              induction ts with
              | nil => exact fun _ => rfl
              | cons t ts ih =>
                intro c h
                have ht := h t (by simp)
                have : t.after fo c = c := by
                  cases t with
                  | mkdirs d => rfl
                  | create q => simp only [Todo.after, if_neg (hfo q)]
                  | write f pos b =>
                    simp only [Todo.dest, ne_eq, Option.some.injEq] at ht
                    have ht' : ¬ fo = f := fun e => ht e.symm
                    simp only [Todo.after, if_neg ht']
                simp only [finish, this]
                exact ih fun t ht => h t (by simp [ht])
            refine this fun t ht => ?_
            rcases todoStore_dest ht with e | e
            · rw [e]; simp
            · rw [e]; intro h; cases h; exact hfo p rfl
      | err m => exact hs
      | panic => exact hs

end Output
end DumpSyms
