import Verif.Model.WinRun
import Verif.Proof.Moments
import Verif.Props.WinDumper
/-!
# The calls of `store` on a Windows machine

As `Verif.Proof.Writing`, with the paths of Windows.
-/
namespace DumpSyms
namespace WinHost
open WinPath
open Output (FileOutput Out IoEnv writeTo Todo todoTo todoTo_writeTo todoTo_dest finish finish_append Along Partway along_todoTo along_append)

theorem todoStore_writeStore (io : IoEnv) (text : Res Str) (fo : FileOutput) (p : Str) (w : Output.World) :
    (todoStore io text p).1 = (writeStore io text p w).1 ∧
    finish fo (todoStore io text p).2 (w.seen fo) = (writeStore io text p w).2.seen fo := by
  unfold todoStore writeStore
  cases parent p with
  | none => exact ⟨rfl, rfl⟩
  | some d =>
    simp only
    split
    · obtain ⟨h1, h2⟩ := todoTo_writeTo io text fo (.path p) { w with dirs := d :: w.dirs }
      refine ⟨h1, ?_⟩
      rw [← h2]
      cases fo <;> rfl
    · exact ⟨rfl, rfl⟩

/-- All the calls of `store`, one after the other, do what `store` does. -/
theorem todoOf_store (io : IoEnv) (extra : Option (List Str)) (out : Out) (checkCfi : Bool) (o : ObjectInfo) (fo : FileOutput) (w : Output.World) :
    (todoOf io extra out checkCfi o).1 = (store io extra out checkCfi o w).1 ∧
    finish fo (todoOf io extra out checkCfi o).2 (w.seen fo) = (store io extra out checkCfi o w).2.seen fo := by
  unfold todoOf store
  split
  · exact ⟨rfl, rfl⟩
  · simp only
    cases (destinations out o).2 with
    | none =>
      simp only
      cases (destinations out o).1 with
      | none => exact ⟨rfl, rfl⟩
      | some fo' => exact todoTo_writeTo io _ fo fo' w
    | some p =>
      simp only
      obtain ⟨h1, h2⟩ := todoStore_writeStore io (o.display extra) fo p w
      rw [h1]
      cases h : (writeStore io (o.display extra) p w).1 with
      | ok u =>
        simp only
        cases (destinations out o).1 with
        | none => exact ⟨h1.trans h, h2⟩
        | some fo' =>
          obtain ⟨h3, h4⟩ := todoTo_writeTo io (o.display extra) fo fo' (writeStore io (o.display extra) p w).2
          refine ⟨h3, ?_⟩
          simp only [finish_append]
          rw [h2, h4]
      | err m => exact ⟨h1, h2⟩
      | panic => exact ⟨h1, h2⟩

theorem todoStore_dest {io : IoEnv} {text : Res Str} {p : Str} {t : Todo} (h : t ∈ (todoStore io text p).2) : t.dest = none ∨ t.dest = some (.path p) := by
  unfold todoStore at h
  split at h
  · cases h
  · split at h
    · rcases List.mem_cons.mp h with rfl | h
      · exact .inl rfl
      · exact .inr (todoTo_dest h)
    · cases h

theorem todoOf_dest {io : IoEnv} {extra : Option (List Str)} {out : Out} {checkCfi : Bool} {o : ObjectInfo} {t : Todo} (hs : PlainStore out) (hn : WinProper o.fileName)
    (hi : WinProper o.debugId)
    (h : t ∈ (todoOf io extra out checkCfi o).2) {fo : FileOutput} (hf : t.dest = some fo) : Requested out o fo := by
  rw [requested_iff hs hn hi]
  have hstore : ∀ p, (destinations out o).2 = some p → t ∈ (todoStore io (o.display extra) p).2 →
      (destinations out o).1 = some fo ∨ ∃ p, (destinations out o).2 = some p ∧ fo = .path p := by
    intro p hp ht
    rcases todoStore_dest ht with e | e
    · rw [e] at hf; cases hf
    · rw [e] at hf; cases hf; exact .inr ⟨p, hp, rfl⟩
  have hfile : ∀ fo', (destinations out o).1 = some fo' → t ∈ (todoTo io (o.display extra) fo').2 →
      (destinations out o).1 = some fo ∨ ∃ p, (destinations out o).2 = some p ∧ fo = .path p := by
    intro fo' hp ht
    have e := todoTo_dest ht
    rw [e] at hf; cases hf; exact .inl hp
  unfold todoOf at h
  split at h
  · cases h
  · simp only at h
    cases h2 : (destinations out o).2 with
    | none =>
      rw [h2] at h
      simp only at h
      cases h1 : (destinations out o).1 with
      | none => rw [h1] at h; cases h
      | some fo' =>
        rw [h1] at h
        simp only [List.nil_append] at h
        have := hfile fo' h1 h
        rw [h1, h2] at this; exact this
    | some p =>
      rw [h2] at h
      simp only at h
      have hst := hstore p h2
      rw [h2] at hst
      split at h
      · cases h1 : (destinations out o).1 with
        | none => rw [h1] at h hst; exact hst h
        | some fo' =>
          rw [h1] at h hst
          simp only [List.mem_append] at h
          rcases h with h | h
          · exact hst h
          · have := hfile fo' h1 h
            rw [h1, h2] at this; exact this
      · exact hst h

theorem along_todoStore {io : IoEnv} {extra : Option (List Str)} {o : ObjectInfo} (hch : ∀ t, (io.chunks t).flatten = Utf8.encode t)
    {fo : FileOutput} {p : Str} {old c : Option Bytes} (hc : Partway extra o fo old c) :
    Along fo (Partway extra o fo old) (todoStore io (o.display extra) p).2 c := by
  unfold todoStore
  split
  · exact hc
  · split
    · exact ⟨hc, fun _ => hc, along_todoTo hch hc (fun h h' => absurd h (h' p))⟩
    · exact hc

/-- While a module is written, each destination holds what it held before or a beginning of the text. -/
theorem along_todoOf {io : IoEnv} {extra : Option (List Str)} {out : Out} {checkCfi : Bool} {o : ObjectInfo}
    (hch : ∀ t, (io.chunks t).flatten = Utf8.encode t) (fo : FileOutput) (old : Option Bytes) :
    Along fo (Partway extra o fo old) (todoOf io extra out checkCfi o).2 old := by
  unfold todoOf
  split
  · exact .inl rfl
  · simp only
    cases (destinations out o).2 with
    | none =>
      simp only
      cases (destinations out o).1 with
      | none => exact .inl rfl
      | some fo' => exact along_todoTo hch (.inl rfl) (fun _ _ => rfl)
    | some p =>
      have hs := along_todoStore (io := io) (extra := extra) (o := o) hch (fo := fo) (p := p) (old := old) (c := old) (.inl rfl)
      simp only
      cases (todoStore io (o.display extra) p).1 with
      | ok u =>
        simp only
        cases (destinations out o).1 with
        | none => exact hs
        | some fo' =>
          refine along_append hs (along_todoTo hch ?_ ?_)
          · have : ∀ {ts c}, Along fo (Partway extra o fo old) ts c → Partway extra o fo old (finish fo ts c) := by
              intro ts
              induction ts with
              | nil => exact id
              | cons t ts ih => exact fun h => ih h.2.2
            exact this hs
          · rintro rfl hfo
            have : ∀ {ts : List Todo} {c}, (∀ t ∈ ts, t.dest ≠ some fo) → finish fo ts c = c := by
              intro ts
              induction ts with
              | nil => exact fun _ => rfl
              | cons t ts ih =>
                intro c h
                have ht := h t (by simp)
                have : t.after fo c = c := by
                  cases t with
                  | mkdirs d => rfl
                  | create q => simp only [Todo.after, if_neg (hfo q)]
                  | write f pos b =>
                    simp only [Todo.dest, ne_eq, Option.some.injEq] at ht
                    have ht' : ¬ fo = f := fun e => ht e.symm
                    simp only [Todo.after, if_neg ht']
                simp only [finish, this]
                exact ih fun t ht => h t (by simp [ht])
            refine this fun t ht => ?_
            rcases todoStore_dest ht with e | e
            · rw [e]; simp
            · rw [e]; intro h; cases h; exact hfo p rfl
      | err m => exact hs
      | panic => exact hs

end WinHost
end DumpSyms
