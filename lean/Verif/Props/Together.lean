import Verif.Model.Together
import Verif.Props.Moments
/-!
# C98: processes that store the same module at the same time
-/
namespace DumpSyms
namespace Output

/-- The calls of a list write `b` to the file `q`, if they write to it at all: `write` calls go on with the rest of it, and when the file is
created all of it is still to be written. -/
structure Program (q : Str) (b : Bytes) (l : List Todo) : Prop where
  rest : ∀ pos x, .write (.path q) pos x ∈ l → pos ≤ b.length ∧ x = b.drop pos
  all : ∀ pre post, l = pre ++ .create q :: post → .write (.path q) 0 b ∈ post

theorem Program.nil (q : Str) (b : Bytes) : Program q b [] :=
  ⟨fun _ _ h => (by cases h), fun pre post h => by cases pre <;> cases h⟩

theorem Program.append {q : Str} {b : Bytes} {l l' : List Todo} (h : Program q b l) (h' : Program q b l') : Program q b (l ++ l') := by
  refine ⟨fun pos x hx => ?_, fun pre post e => ?_⟩
  · rcases List.mem_append.mp hx with hx | hx
    · exact h.rest pos x hx
    · exact h'.rest pos x hx
  · rcases List.append_eq_append_iff.mp e with ⟨a, e1, e2⟩ | ⟨a, e1, e2⟩
    · exact h'.all a post e2
    · cases a with
      | nil => exact h'.all [] post (by simpa using e2.symm)
      | cons t a =>
        simp only [List.cons_append, List.cons.injEq] at e2
        obtain ⟨rfl, rfl⟩ := e2
        exact List.mem_append_left _ (h.all pre a e1)

theorem Program.tail {q : Str} {b : Bytes} {t : Todo} {ts : List Todo} (h : Program q b (t :: ts)) : Program q b ts :=
  ⟨fun pos x hx => h.rest pos x (by simp [hx]), fun pre post e => h.all (t :: pre) post (by rw [e]; rfl)⟩

/-- Some call of the list writes the byte number `n` of the file. -/
def Covers (q : Str) (l : List Todo) (n : Nat) : Prop := ∃ pos x, Todo.write (.path q) pos x ∈ l ∧ pos ≤ n ∧ n < pos + x.length

/-- Each byte of the file is right or still to be written by one of the lists, and there are no other bytes. -/
structure Right (q : Str) (b : Bytes) (lists : List Todo → Prop) (c : Option Bytes) : Prop where
  size : (c.getD []).length ≤ b.length
  byte : ∀ n, n < b.length → (c.getD [])[n]? = b[n]? ∨ ∃ l, lists l ∧ Covers q l n

theorem getElem?_writeAt (old : Bytes) (pos : Nat) (x : Bytes) (n : Nat) :
    (n < pos → n < old.length → (writeAt old pos x)[n]? = old[n]?) ∧
    (pos ≤ n → n < pos + x.length → (writeAt old pos x)[n]? = x[n - pos]?) ∧
    (pos + x.length ≤ n → (writeAt old pos x)[n]? = old[n]?) := by
  have hA : ((old ++ List.replicate (pos - old.length) 0).take pos).length = pos := by
    simp only [List.length_take, List.length_append, List.length_replicate]; omega
  unfold writeAt
  refine ⟨fun h1 h2 => ?_, fun h1 h2 => ?_, fun h => ?_⟩
  · rw [List.append_assoc, List.getElem?_append_left (by omega), List.getElem?_take_of_lt h1, List.getElem?_append_left h2]
  · rw [List.getElem?_append_left (by simp only [List.length_append, hA]; omega), List.getElem?_append_right (by omega), hA]
  · rw [List.getElem?_append_right (by simp only [List.length_append, hA]; omega), List.getElem?_drop]
    congr 1
    simp only [List.length_append, hA]; omega

theorem length_writeAt (old : Bytes) (pos : Nat) (x : Bytes) : (writeAt old pos x).length = max old.length (pos + x.length) := by
  unfold writeAt
  simp only [List.length_append, List.length_take, List.length_replicate, List.length_drop]
  omega

theorem Program.make {q : Str} {b : Bytes} {t : Todo} {ts : List Todo} (h : Program q b (t :: ts)) (k : Nat) (w : World) :
    Program q b ((t.make k w).1 ++ ts) := by
  refine Program.append ?_ h.tail
  cases t with
  | mkdirs d => exact .nil q b
  | create p => exact .nil q b
  | write fo pos x =>
    simp only [Todo.make]
    split
    · rename_i hk
      refine ⟨fun pos' x' hx => ?_, fun pre post e => ?_⟩
      · simp only [List.mem_singleton, Todo.write.injEq] at hx
        obtain ⟨rfl, rfl, rfl⟩ := hx
        obtain ⟨h1, h2⟩ := h.rest pos x (by simp)
        subst h2
        rw [List.length_drop] at hk
        exact ⟨by omega, by rw [List.drop_drop]⟩
      · cases pre with
        | nil => cases e
        | cons a pre => cases pre <;> cases e
    · exact .nil q b

theorem covers_append {q : Str} {l l' : List Todo} {n : Nat} : Covers q (l ++ l') n ↔ Covers q l n ∨ Covers q l' n := by
  unfold Covers
  constructor
  · rintro ⟨pos, x, h, h'⟩
    rcases List.mem_append.mp h with h | h
    · exact .inl ⟨pos, x, h, h'⟩
    · exact .inr ⟨pos, x, h, h'⟩
  · rintro (⟨pos, x, h, h'⟩ | ⟨pos, x, h, h'⟩)
    · exact ⟨pos, x, List.mem_append_left _ h, h'⟩
    · exact ⟨pos, x, List.mem_append_right _ h, h'⟩

/-- A call of one of the processes. -/
theorem Right.make {q : Str} {b : Bytes} {t : Todo} {ts : List Todo} {others : List Todo → Prop} {w : World} (hp : Program q b (t :: ts))
    (h : Right q b (fun l => l = t :: ts ∨ others l) (w.seen (.path q))) (k : Nat) :
    Right q b (fun l => l = (t.make k w).1 ++ ts ∨ others l) ((t.make k w).2.seen (.path q)) := by
  -- what was to be written by the calls after this one, or by other processes, is still to be written
  have later : ∀ n, (∃ l, (l = ts ∨ others l) ∧ Covers q l n) → ∃ l, (l = (t.make k w).1 ++ ts ∨ others l) ∧ Covers q l n := by
    rintro n ⟨l, rfl | hl, hc⟩
    · exact ⟨_, .inl rfl, covers_append.mpr (.inr hc)⟩
    · exact ⟨l, .inr hl, hc⟩
  have old : ∀ n, n < b.length → ((w.seen (.path q)).getD [])[n]? = b[n]? ∨ Covers q [t] n ∨ ∃ l, (l = ts ∨ others l) ∧ Covers q l n := by
    intro n hn
    rcases h.byte n hn with h | ⟨l, rfl | hl, hc⟩
    · exact .inl h
    · rcases covers_append (l := [t]).mp hc with hc | hc
      · exact .inr (.inl hc)
      · exact .inr (.inr ⟨ts, .inl rfl, hc⟩)
    · exact .inr (.inr ⟨l, .inr hl, hc⟩)
  -- a call that has nothing to do with the file
  have other : (∀ pos x, t ≠ .write (.path q) pos x) → (t.make k w).2.seen (.path q) = w.seen (.path q) →
      Right q b (fun l => l = (t.make k w).1 ++ ts ∨ others l) ((t.make k w).2.seen (.path q)) := by
    intro hne he
    rw [he]
    refine ⟨h.size, fun n hn => ?_⟩
    rcases old n hn with h | ⟨pos, x, hm, _⟩ | h
    · exact .inl h
    · exact absurd (List.mem_singleton.mp hm).symm (hne pos x)
    · exact .inr (later n h)
  have hseen := make_seen (.path q) k t w
  cases t with
  | mkdirs d => exact other (fun _ _ e => by cases e) hseen
  | create p =>
    by_cases hq : p = q
    · subst hq
      rw [hseen]
      simp only [Todo.after, if_true]
      refine ⟨by simp, fun n hn => .inr (later n ⟨ts, .inl rfl, 0, b, hp.all [] ts rfl, by omega, by omega⟩)⟩
    · refine other (fun _ _ e => by cases e) ?_
      rw [hseen]
      simp only [Todo.after, FileOutput.path.injEq, Ne.symm hq, if_false]
  | write fo pos x =>
    by_cases hq : FileOutput.path q = fo
    · subst hq
      obtain ⟨h1, h2⟩ := hp.rest pos x (by simp)
      rw [hseen]
      simp only [if_true, writeSeen]
      have hlen : x.length = b.length - pos := by rw [h2, List.length_drop]
      refine ⟨?_, fun n hn => ?_⟩
      · have := h.size
        simp only [Option.getD_some, length_writeAt, List.length_take]; omega
      · obtain ⟨g1, g2, g3⟩ := getElem?_writeAt ((w.seen (.path q)).getD []) pos (x.take k) n
        simp only [Option.getD_some]
        rcases Nat.lt_or_ge n pos with hlt | hge
        · rcases old n hn with h | ⟨pos', x', hm, hc, _⟩ | h
          · refine .inl ((g1 hlt ?_).trans h)
            rcases Nat.lt_or_ge n ((w.seen (.path q)).getD []).length with h' | h'
            · exact h'
            · rw [List.getElem?_eq_none h', List.getElem?_eq_getElem hn] at h; cases h
          · cases List.mem_singleton.mp hm
            exact absurd hc (by omega)
          · exact .inr (later n h)
        · rcases Nat.lt_or_ge n (pos + (x.take k).length) with hlt' | hge'
          · refine .inl ((g2 hge hlt').trans ?_)
            simp only [List.length_take] at hlt'
            rw [List.getElem?_take_of_lt (by omega), h2, List.getElem?_drop]
            congr 1; omega
          · rw [List.length_take] at hge'
            have hk : k < x.length := by omega
            refine .inr ⟨_, .inl rfl, covers_append.mpr (.inl ⟨pos + k, x.drop k, by simp [Todo.make, hk], by omega, ?_⟩)⟩
            rw [List.length_drop]; omega
    · refine other (fun _ _ e => ?_) ?_
      · cases e; exact hq rfl
      · rw [hseen]
        simp only [hq, if_false]

theorem todoTo_fits {io : IoEnv} {t : Str} {fo : FileOutput} (hc : ∀ p, io.create p = true) (hch : (io.chunks t).flatten = Utf8.encode t)
    (hr : (Utf8.encode t).length ≤ io.room fo) : todoTo io (.ok t) fo = (.ok (), opening fo ++ [.write fo 0 (Utf8.encode t)]) := by
  unfold todoTo
  rw [if_pos (by cases fo with
    | path p => exact hc p
    | stdout => rfl
    | stderr => rfl)]
  simp only [dump_fits (cap := io.capacity) (hch ▸ hr), hch, if_true]

theorem program_todoTo {q : Str} {b : Bytes} {fo : FileOutput} {x : Bytes} (h : fo = .path q → x = b) : Program q b (opening fo ++ [.write fo 0 x]) := by
  refine ⟨fun pos y hy => ?_, fun pre post e => ?_⟩
  · rcases List.mem_append.mp hy with hy | hy
    · cases fo <;> simp [opening] at hy
    · simp only [List.mem_singleton, Todo.write.injEq] at hy
      obtain ⟨rfl, rfl, rfl⟩ := hy
      exact ⟨by omega, by rw [h rfl]; rfl⟩
  · cases fo with
    | path p =>
      simp only [opening, List.cons_append, List.nil_append] at e
      cases pre with
      | nil =>
        simp only [List.nil_append, List.cons.injEq, Todo.create.injEq] at e
        obtain ⟨rfl, rfl⟩ := e
        rw [h rfl]; simp
      | cons a pre =>
        simp only [List.cons_append, List.cons.injEq] at e
        have e := e.2
        cases pre with
        | nil => cases e
        | cons a pre => cases pre <;> cases e
    | stdout =>
      cases pre with
      | nil => cases e
      | cons a pre => cases pre <;> cases e
    | stderr =>
      cases pre with
      | nil => cases e
      | cons a pre => cases pre <;> cases e

theorem program_mkdirs (q : Str) (b : Bytes) (d : Str) : Program q b [.mkdirs d] := by
  refine ⟨fun pos y hy => by simp at hy, fun pre post e => ?_⟩
  cases pre with
  | nil => cases e
  | cons a pre => cases pre <;> cases e

/-- The calls of a module that can be written: they write its text to what is asked for. -/
theorem program_calls {io : IoEnv} {extra : Option (List Str)} {out : Out} {checkCfi : Bool} {o : ObjectInfo} {t : Str} (hn : '/' ∉ o.fileName)
    (hcfi : checkCfi = true → o.stack ≠ []) (ht : o.display extra = .ok t) (hch : (io.chunks t).flatten = Utf8.encode t)
    (hm : ∀ d, io.mkdirs d = true) (hc : ∀ p, io.create p = true) (hr : ∀ fo, (Utf8.encode t).length ≤ io.room fo) (q : Str) (b : Bytes)
    (hb : Requested out o (.path q) → Utf8.encode t = b) :
    Program q b (callsOf io extra out checkCfi o) ∧ (Requested out o (.path q) → .create q ∈ callsOf io extra out checkCfi o) := by
  rw [requested_iff hn] at hb ⊢
  unfold callsOf todoOf
  rw [if_neg (by
    intro h
    simp only [ObjectInfo.hasStack, Bool.not_not, Bool.and_eq_true, List.isEmpty_iff] at h
    exact hcfi h.1 h.2)]
  have hfile : ∀ fo, (destinations out o).1 = some fo → Program q b (opening fo ++ [.write fo 0 (Utf8.encode t)]) :=
    fun fo hfo => program_todoTo fun e => hb (.inl (by rw [hfo, e]))
  have hstore : ∀ p, (destinations out o).2 = some p → ∃ d, todoStore io (.ok t) p = (.ok (), .mkdirs d :: ([.create p] ++ [.write (.path p) 0 (Utf8.encode t)])) := by
    intro p hp
    have hpar : ∃ d, Path.parent p = some d := by
      cases out with
      | file f => cases hp
      | store dir => exact symStorePath_parent hp
      | fileAndStore f dir => exact symStorePath_parent hp
    obtain ⟨d, hd⟩ := hpar
    refine ⟨d, ?_⟩
    unfold todoStore
    simp only [hd, hm, if_true, todoTo_fits hc hch (hr _), opening]
  have hst : ∀ p, (destinations out o).2 = some p → ∀ d, Program q b (.mkdirs d :: ([.create p] ++ [.write (.path p) 0 (Utf8.encode t)])) := by
    intro p hp d
    exact (program_mkdirs q b d).append (program_todoTo (fo := .path p) fun e => hb (.inr ⟨p, hp, e.symm⟩))
  simp only [ht]
  cases h2 : (destinations out o).2 with
  | none =>
    simp only
    cases h1 : (destinations out o).1 with
    | none => exact ⟨.nil q b, by rintro (h | ⟨p, h, _⟩) <;> cases h⟩
    | some fo =>
      simp only [todoTo_fits hc hch (hr fo), List.nil_append]
      refine ⟨hfile fo h1, ?_⟩
      rintro (h | ⟨p, h, _⟩)
      · cases h; simp [opening]
      · cases h
  | some p =>
    obtain ⟨d, hd⟩ := hstore p h2
    simp only [hd]
    cases h1 : (destinations out o).1 with
    | none =>
      refine ⟨hst p h2 d, ?_⟩
      rintro (h | ⟨p', h, e⟩)
      · cases h
      · cases h; cases e; simp
    | some fo =>
      simp only [todoTo_fits hc hch (hr fo)]
      refine ⟨(hst p h2 d).append (hfile fo h1), ?_⟩
      rintro (h | ⟨p', h, e⟩)
      · cases h; simp [opening]
      · cases h; cases e; simp

/-- Every `write` to the file comes after a call that creates it. -/
def Fresh (q : Str) (l : List Todo) : Prop := ∀ pre pos x post, l = pre ++ .write (.path q) pos x :: post → .create q ∈ pre

theorem Fresh.nil (q : Str) : Fresh q [] := fun pre _ _ _ h => by cases pre <;> cases h

theorem Fresh.append {q : Str} {l l' : List Todo} (h : Fresh q l) (h' : Fresh q l') : Fresh q (l ++ l') := by
  intro pre pos x post e
  rcases List.append_eq_append_iff.mp e with ⟨a, e1, e2⟩ | ⟨a, e1, e2⟩
  · rw [e1]; exact List.mem_append_right _ (h' a pos x post e2)
  · cases a with
    | nil =>
      have := h' [] pos x post (by simpa using e2.symm)
      cases this
    | cons t a =>
      simp only [List.cons_append, List.cons.injEq] at e2
      obtain ⟨rfl, rfl⟩ := e2
      exact h pre pos x a e1

/-- The calls of a module create what they write. -/
theorem fresh_calls (io : IoEnv) (extra : Option (List Str)) (out : Out) (checkCfi : Bool) (o : ObjectInfo) (q : Str) :
    Fresh q (callsOf io extra out checkCfi o) := by
  have hopen : ∀ fo, Fresh q (opening fo) := by
    intro fo pre pos x post e
    cases fo with
    | path p => cases pre with
      | nil => cases e
      | cons a pre => cases pre <;> cases e
    | stdout => cases pre <;> cases e
    | stderr => cases pre <;> cases e
  have hmk : ∀ d, Fresh q [.mkdirs d] := by
    intro d pre pos x post e
    cases pre with
    | nil => cases e
    | cons a pre => cases pre <;> cases e
  have hto : ∀ text fo, Fresh q (todoTo io text fo).2 := by
    intro text fo
    unfold todoTo
    split
    · cases text with
      | ok t =>
        simp only
        cases fo with
        | path p =>
          intro pre pos x post e
          simp only [opening, List.cons_append, List.nil_append] at e
          cases pre with
          | nil => cases e
          | cons a pre =>
            simp only [List.cons_append, List.cons.injEq] at e
            obtain ⟨rfl, e⟩ := e
            cases pre with
            | nil =>
              simp only [List.nil_append, List.cons.injEq, Todo.write.injEq, FileOutput.path.injEq] at e
              rw [e.1.1]; simp
            | cons a pre => cases pre <;> cases e
        | stdout =>
          intro pre pos x post e
          cases pre with
          | nil => cases e
          | cons a pre => cases pre <;> cases e
        | stderr =>
          intro pre pos x post e
          cases pre with
          | nil => cases e
          | cons a pre => cases pre <;> cases e
      | err m => exact hopen fo
      | panic => exact hopen fo
    · exact .nil q
  have hst : ∀ text p, Fresh q (todoStore io text p).2 := by
    intro text p
    unfold todoStore
    split
    · exact .nil q
    · split
      · exact (hmk _).append (hto text (.path p))
      · exact .nil q
  unfold callsOf todoOf
  split
  · exact .nil q
  · simp only
    have h1 : Fresh q (match (destinations out o).2 with
        | some p => todoStore io (o.display extra) p
        | none => (.ok (), [])).2 := by
      split
      · exact hst _ _
      · exact .nil q
    split
    · split
      · exact h1.append (hto _ _)
      · exact h1
    · exact h1

end Output

namespace Run
open Dumper Output

theorem Proc.Reads.same {env : Env} {p : Proc} {extra extra' : List Str} {c c' : Config} {m m' : ObjectInfo} (h : p.Reads env extra c m)
    (h' : p.Reads env extra' c' m') : extra' = extra ∧ c' = c ∧ m' = m := by
  obtain ⟨a1, a2, f, a3, a4⟩ := h
  obtain ⟨b1, b2, g, b3, b4⟩ := h'
  rw [a1] at b1; cases b1
  rw [a2] at b2; cases b2
  rw [a3] at b3; cases b3
  rw [a4] at b4; cases b4
  exact ⟨rfl, rfl, rfl⟩

/-- What is required of the processes: each can write its module, and those that write to the file `q` write `b` to it. -/
structure Agree (env : Env) (ps : List Proc) (q : Str) (b : Bytes) : Prop where
  parts : ∀ t, (env.io.chunks t).flatten = Utf8.encode t
  mkdirs : ∀ d, env.io.mkdirs d = true
  create : ∀ p, env.io.create p = true
  each : ∀ p ∈ ps, ∀ extra c m, p.Reads env extra c m → ∃ t, m.display (some extra) = .ok t ∧ (c.checkCfi = true → m.stack ≠ []) ∧
    (∀ fo, (Utf8.encode t).length ≤ env.io.room fo) ∧ (Requested c.output m (.path q) → Utf8.encode t = b)

theorem together_program {env : Env} {ps : List Proc} {q : Str} {b : Bytes} (ha : Agree env ps q b) {out out' : World} {st : Nat → Option (List Todo)}
    (h : Together env ps out st out') {i : Nat} {l : List Todo} (hi : st i = some l) : Program q b l := by
  induction h generalizing i l with
  | start => cases hi
  | read st out' j p extra c m h hj hs hr ih =>
    by_cases hij : i = j
    · simp only [hij, if_true, Option.some.injEq] at hi
      subst hi
      obtain ⟨t, h1, h2, h3, h4⟩ := ha.each p (List.mem_of_getElem? hj) extra c m hr
      obtain ⟨_, _, f, _, h5⟩ := hr
      exact (program_calls (readSingle_no_slash h5) h2 h1 (ha.parts t) ha.mkdirs ha.create h3 q b h4).1
    · simp only [hij, if_false] at hi
      exact ih hi
  | call st out' j k t ts h hs hk ih =>
    by_cases hij : i = j
    · simp only [hij, if_true, Option.some.injEq] at hi
      subst hi
      exact (ih hs).make k out'
    · simp only [hij, if_false] at hi
      exact ih hi

/-- Before the file is created by one of the processes, it is what it was. -/
structure Before (env : Env) (ps : List Proc) (q : Str) (out out' : World) (st : Nat → Option (List Todo)) : Prop where
  same : out'.files q = out.files q
  fresh : ∀ i l, st i = some l → Fresh q l
  asked : ∀ i p extra c m l, ps[i]? = some p → p.Reads env extra c m → Requested c.output m (.path q) → st i = some l → .create q ∈ l

theorem together_inv {env : Env} {ps : List Proc} {q : Str} {b : Bytes} (ha : Agree env ps q b) {out out' : World} {st : Nat → Option (List Todo)}
    (h : Together env ps out st out') :
    Before env ps q out out' st ∨ ((out'.files q).isSome = true ∧ Right q b (fun l => ∃ i, st i = some l) (out'.files q)) := by
  induction h with
  | start => exact .inl ⟨rfl, fun i l h => (by cases h), fun i p extra c m l _ _ _ h => by cases h⟩
  | read st out' j p extra c m h hj hs hr ih =>
    rcases ih with ih | ⟨h1, h2⟩
    · refine .inl ⟨ih.same, fun i l hi => ?_, fun i p' extra' c' m' l hi hr' hreq hl => ?_⟩
      · by_cases hij : i = j
        · simp only [hij, if_true, Option.some.injEq] at hi
          subst hi
          exact fresh_calls _ _ _ _ _ q
        · simp only [hij, if_false] at hi
          exact ih.fresh i l hi
      · by_cases hij : i = j
        · simp only [hij, if_true, Option.some.injEq] at hl hi
          subst hl
          rw [hj] at hi; cases hi
          obtain ⟨rfl, rfl, rfl⟩ := hr.same hr'
          obtain ⟨t, h1, h2, h3, h4⟩ := ha.each p (List.mem_of_getElem? hj) _ _ _ hr
          obtain ⟨_, _, f, _, h5⟩ := hr
          exact (program_calls (readSingle_no_slash h5) h2 h1 (ha.parts t) ha.mkdirs ha.create h3 q b h4).2 hreq
        · simp only [hij, if_false] at hl
          exact ih.asked i p' extra' c' m' l hi hr' hreq hl
    · refine .inr ⟨h1, h2.size, fun n hn => ?_⟩
      rcases h2.byte n hn with h | ⟨l, ⟨i, hi⟩, hl⟩
      · exact .inl h
      · have hij : i ≠ j := by rintro rfl; rw [hs] at hi; cases hi
        exact .inr ⟨l, ⟨i, by simp only [hij, if_false]; exact hi⟩, hl⟩
  | call st out' j k t ts h hs hk ih =>
    have hp := together_program ha h hs
    have hseen := make_seen (.path q) k t out'
    rcases ih with ih | ⟨h1, h2⟩
    · have hfr := ih.fresh j _ hs
      by_cases ht : t = .create q
      · subst ht
        right
        have : ((Todo.create q).make k out').2.files q = some [] := by
          have := hseen
          simp only [Todo.after, if_true] at this
          exact this
        rw [this]
        refine ⟨rfl, by simp, fun n hn => .inr ⟨ts, ⟨j, by simp [Todo.make]⟩, 0, b, hp.all [] ts rfl, by omega, by omega⟩⟩
      · left
        have hne : ∀ pos x, t ≠ .write (.path q) pos x := by
          rintro pos x rfl
          have := hfr [] pos x ts rfl
          cases this
        have hmk : Fresh q (t.make k out').1 := by
          cases t with
          | mkdirs d => exact .nil q
          | create p => exact .nil q
          | write fo pos x =>
            simp only [Todo.make]
            split
            · intro pre pos' x' post e
              cases pre with
              | nil => cases e; exact absurd rfl (hne pos x)
              | cons a pre => cases pre <;> cases e
            · exact .nil q
        have htail : Fresh q ts := by
          intro pre pos x post e
          have := hfr (t :: pre) pos x post (by rw [e]; rfl)
          rcases List.mem_cons.mp this with h | h
          · exact absurd h.symm ht
          · exact h
        refine ⟨?_, fun i l hi => ?_, fun i p extra c m l hi hr hreq hl => ?_⟩
        · rw [← ih.same]
          refine Eq.trans hseen ?_
          cases t with
          | mkdirs d => rfl
          | create p =>
            simp only [Todo.after]
            rw [if_neg (by rintro e; cases e; exact ht rfl)]
            rfl
          | write fo pos x =>
            simp only
            rw [if_neg (by rintro rfl; exact hne pos x rfl)]
            rfl
        · by_cases hij : i = j
          · simp only [hij, if_true, Option.some.injEq] at hi
            subst hi
            exact hmk.append htail
          · simp only [hij, if_false] at hi
            exact ih.fresh i l hi
        · by_cases hij : i = j
          · simp only [hij, if_true, Option.some.injEq] at hl
            subst hl hij
            have := ih.asked i p extra c m _ hi hr hreq hs
            rcases List.mem_cons.mp this with h | h
            · exact absurd h.symm ht
            · exact List.mem_append_right _ h
          · simp only [hij, if_false] at hl
            exact ih.asked i p extra c m l hi hr hreq hl
    · right
      have hold : Right q b (fun l => l = t :: ts ∨ ∃ i, i ≠ j ∧ st i = some l) (out'.seen (.path q)) := by
        refine ⟨h2.size, fun n hn => ?_⟩
        rcases h2.byte n hn with h | ⟨l, ⟨i, hi⟩, hl⟩
        · exact .inl h
        · by_cases hij : i = j
          · rw [hij, hs] at hi; cases hi
            exact .inr ⟨_, .inl rfl, hl⟩
          · exact .inr ⟨l, .inr ⟨i, hij, hi⟩, hl⟩
      have hnew := hold.make hp k
      refine ⟨?_, hnew.size, fun n hn => ?_⟩
      · show ((t.make k out').2.seen (.path q)).isSome = true
        rw [hseen]
        have h1 : (out'.seen (.path q)).isSome = true := h1
        cases t with
        | mkdirs d => exact h1
        | create p => simp only [Todo.after]; split <;> simp [h1]
        | write fo pos x => simp only; split <;> simp [h1, writeSeen]
      · rcases hnew.byte n hn with h | ⟨l, hl, hc⟩
        · exact .inl h
        · rcases hl with rfl | ⟨i, hij, hi⟩
          · exact .inr ⟨_, ⟨j, by simp⟩, hc⟩
          · exact .inr ⟨l, ⟨i, by simp only [hij, if_false]; exact hi⟩, hc⟩

/-- **C98.**  Processes that run at the same time and write the same bytes to a file leave exactly these bytes, in whatever order their calls are
made and however many bytes each call takes. -/
theorem C98_together (env : Env) (ps : List Proc) (q : Str) (b : Bytes) (ha : Agree env ps q b) (out out' : World) (st : Nat → Option (List Todo))
    (h : Together env ps out st out') (hdone : ∀ i l, st i = some l → l = []) (i : Nat) (p : Proc) (extra : List Str) (c : Config) (m : ObjectInfo)
    (hi : ps[i]? = some p) (hr : p.Reads env extra c m) (hreq : Requested c.output m (.path q)) (hsome : st i ≠ none) : out'.files q = some b := by
  rcases together_inv ha h with hb | ⟨h1, h2⟩
  · obtain ⟨l, hl⟩ := Option.ne_none_iff_exists'.mp hsome
    have := hb.asked i p extra c m l hi hr hreq hl
    rw [hdone i l hl] at this
    cases this
  · obtain ⟨f, hf⟩ := Option.isSome_iff_exists.mp h1
    rw [hf] at h2 ⊢
    congr 1
    refine List.ext_getElem? fun n => ?_
    rcases Nat.lt_or_ge n b.length with hn | hn
    · rcases h2.byte n hn with h | ⟨l, ⟨i, hi⟩, pos, x, hm, _⟩
      · exact h
      · rw [hdone i l hi] at hm; cases hm
    · rw [List.getElem?_eq_none hn]
      exact List.getElem?_eq_none (Nat.le_trans (show f.length ≤ b.length from h2.size) hn)

/-- **C98, the rest.** A file that none of the processes is to write to is left as it was, at every moment. -/
theorem C98_untouched (env : Env) (ps : List Proc) (q : Str) (hno : ∀ p ∈ ps, ∀ extra c m, p.Reads env extra c m → ¬ Requested c.output m (.path q))
    (out out' : World) (st : Nat → Option (List Todo)) (h : Together env ps out st out') : out'.files q = out.files q := by
  have key : (∀ i l, st i = some l → ∀ t ∈ l, t.dest ≠ some (.path q)) ∧ out'.seen (.path q) = out.seen (.path q) := by
    induction h with
    | start => exact ⟨fun i l h => (by cases h), rfl⟩
    | read st out' j p extra c m h hj hs hr ih =>
      refine ⟨fun i l hi t ht hd => ?_, ih.2⟩
      by_cases hij : i = j
      · simp only [hij, if_true, Option.some.injEq] at hi
        subst hi
        have hr' := hr
        obtain ⟨_, _, f, _, h5⟩ := hr'
        exact hno p (List.mem_of_getElem? hj) extra c m hr (todoOf_dest (readSingle_no_slash h5) ht hd)
      · simp only [hij, if_false] at hi
        exact ih.1 i l hi t ht hd
    | call st out' j k t ts h hs hk ih =>
      obtain ⟨h1, h2⟩ := ih
      refine ⟨fun i l hi u hu hd => ?_, ?_⟩
      · by_cases hij : i = j
        · simp only [hij, if_true, Option.some.injEq] at hi
          subst hi
          rcases List.mem_append.mp hu with hu | hu
          · rw [make_dest k t out' u hu] at hd
            exact h1 j _ hs t (by simp) hd
          · exact h1 j _ hs u (by simp [hu]) hd
        · simp only [hij, if_false] at hi
          exact h1 i l hi u hu hd
      · rw [make_other (h1 j _ hs t (by simp))]
        exact h2
  exact key.2

theorem together_lt {env : Env} {ps : List Proc} {out out' : World} {st : Nat → Option (List Todo)} (h : Together env ps out st out') {i : Nat}
    (hi : ps.length ≤ i) : st i = none := by
  induction h with
  | start => rfl
  | read st out' j p extra c m h hj hs hr ih =>
    have hij : i ≠ j := by
      rintro rfl
      rw [List.getElem?_eq_none hi] at hj; cases hj
    simp only [hij, if_false]; exact ih
  | call st out' j k t ts h hs hk ih =>
    have hij : i ≠ j := by
      rintro rfl
      rw [ih] at hs; cases hs
    simp only [hij, if_false]; exact ih

/-! ## Samples -/

/-- A step: a process reads its input, or makes a call that takes `k` bytes. -/
inductive Move where
  | reads (i : Nat)
  | makes (i k : Nat)

/-- Steps, one after the other; steps that are not possible are left out. -/
def moves (calls : Nat → List Todo) : List Move → (Nat → Option (List Todo)) × World → (Nat → Option (List Todo)) × World
  | [], r => r
  | .reads i :: ms, r => moves calls ms (if (r.1 i).isNone then (fun j => if j = i then some (calls i) else r.1 j, r.2) else r)
  | .makes i k :: ms, r => moves calls ms (match r.1 i with
    | some (t :: ts) => if 0 < k then (fun j => if j = i then some ((t.make k r.2).1 ++ ts) else r.1 j, (t.make k r.2).2) else r
    | _ => r)

theorem moves_together {env : Env} {ps : List Proc} {out : World} {calls : Nat → List Todo}
    (hc : ∀ i, ps.length ≤ i ∨ ∃ p extra c m, ps[i]? = some p ∧ p.Reads env extra c m ∧ calls i = Output.callsOf env.io (some extra) c.output c.checkCfi m)
    (ms : List Move) (hm : ∀ i, .reads i ∈ ms → i < ps.length) {r : (Nat → Option (List Todo)) × World} (h : Together env ps out r.1 r.2) :
    Together env ps out (moves calls ms r).1 (moves calls ms r).2 := by
  induction ms generalizing r with
  | nil => exact h
  | cons a ms ih =>
    have hm' : ∀ i, .reads i ∈ ms → i < ps.length := fun i hi => hm i (by simp [hi])
    cases a with
    | reads i =>
      refine ih hm' ?_
      split
      · rename_i hn
        rcases hc i with hlt | ⟨p, extra, c, m, h1, h2, h3⟩
        · exact absurd (hm i (by simp)) (by omega)
        · rw [h3]; exact .read r.1 r.2 i p extra c m h h1 (by simpa using hn) h2
      · exact h
    | makes i k =>
      refine ih hm' ?_
      split
      · rename_i t ts hs
        split
        · rename_i hk; exact .call r.1 r.2 i k t ts h hs hk
        · exact h
      · exact h

/-- Two processes that dump the same library into the same store, and one whose symbol file has another header line. -/
def sameProc : Proc := ⟨str% "2.3.4", 8, exOptions [str% "/d/a"], exDisk⟩
def otherProc : Proc := { sameProc with options := { exOptions [str% "/d/a"] with extraInfo := some [str% "RELEASE nightly"] } }
def procCalls (extra : List Str) : List Todo := Output.callsOf exEnv.io (some extra) failConfig.output failConfig.checkCfi exA

theorem sameReads : sameProc.Reads exEnv [] failConfig exA := ⟨rfl, rfl, _, rfl, rfl⟩
theorem otherReads : otherProc.Reads exEnv [str% "RELEASE nightly"] failConfig exA := ⟨rfl, rfl, _, rfl, rfl⟩

def place : Str := str% "/s/lib.so/E1/lib.so.sym"

def same2 : List Proc := [sameProc, sameProc]
def mixed2 : List Proc := [sameProc, otherProc]
def otherInfo : List Str := [str% "RELEASE nightly"]

/-- The first process has written a part when the second creates the file, which empties it; the first one goes on where it was. -/
def gapMoves : List Move := [.reads 0, .makes 0 1, .makes 0 1, .makes 0 40, .reads 1, .makes 1 1, .makes 1 1, .makes 0 10]
def sameCalls : Nat → List Todo := fun _ => procCalls []
def mixedCalls : Nat → List Todo := fun i => if i = 0 then procCalls [] else procCalls otherInfo

theorem same_calls (i : Nat) : same2.length ≤ i ∨ ∃ p extra c m, same2[i]? = some p ∧ p.Reads exEnv extra c m ∧
    sameCalls i = Output.callsOf exEnv.io (some extra) c.output c.checkCfi m := by
  match i with
  | 0 => exact .inr ⟨_, _, _, _, rfl, sameReads, rfl⟩
  | 1 => exact .inr ⟨_, _, _, _, rfl, sameReads, rfl⟩
  | i + 2 => exact .inl (by simp [same2])

theorem mixed_calls (i : Nat) : mixed2.length ≤ i ∨ ∃ p extra c m, mixed2[i]? = some p ∧ p.Reads exEnv extra c m ∧
    mixedCalls i = Output.callsOf exEnv.io (some extra) c.output c.checkCfi m := by
  match i with
  | 0 => exact .inr ⟨_, _, _, _, rfl, sameReads, rfl⟩
  | 1 => exact .inr ⟨_, _, _, _, rfl, otherReads, rfl⟩
  | i + 2 => exact .inl (by simp [mixed2])

def textA : Str := str% "MODULE Linux x86_64 E1 lib.so\nFILE 0 /c/y.c\nFUNC 2000 10 0 b()\n2000 10 20 0\nSTACK CFI 1\n"
theorem textA_eq : exA.display (some []) = .ok textA := by decide +kernel

def nobody : (Nat → Option (List Todo)) × World := (fun _ => none, emptyWorld)
def gap : (Nat → Option (List Todo)) × World := moves sameCalls gapMoves nobody
def gapEnd : (Nat → Option (List Todo)) × World := moves sameCalls [.makes 1 1000, .makes 0 1000] gap
def mixEnd : (Nat → Option (List Todo)) × World :=
  moves mixedCalls [.reads 0, .makes 0 1, .makes 0 1, .reads 1, .makes 1 1, .makes 1 1, .makes 1 1000, .makes 0 1000] nobody

theorem gap_together : Together exEnv same2 emptyWorld gap.1 gap.2 :=
  moves_together same_calls gapMoves (by intro i hi; simp [gapMoves] at hi; rcases hi with rfl | rfl <;> decide) .start

theorem gapEnd_together : Together exEnv same2 emptyWorld gapEnd.1 gapEnd.2 :=
  moves_together same_calls _ (by intro i hi; simp at hi) gap_together

theorem mixEnd_together : Together exEnv mixed2 emptyWorld mixEnd.1 mixEnd.2 :=
  moves_together mixed_calls _ (by intro i hi; simp at hi; rcases hi with rfl | rfl <;> decide) .start

/-- **C98, meanwhile.** Until the processes have ended, the file need not be a beginning of the symbol file: here it begins with 40 zeros. -/
theorem C98_gap_witness : ∃ st out' part, Together exEnv same2 emptyWorld st out' ∧ out'.files place = some (List.replicate 40 0 ++ part) ∧ part.length = 10 :=
  ⟨_, _, (Utf8.encode textA).extract 40 50, gap_together, by decide +kernel, by decide +kernel⟩

theorem same_agree : Agree exEnv same2 place (Utf8.encode textA) where
  parts := by simp [exEnv, goodDisk, fullDisk]
  mkdirs := by simp [exEnv, goodDisk, fullDisk]
  create := by simp [exEnv, goodDisk, fullDisk]
  each := by
    intro p hp extra c m hr
    have : p = sameProc := by simpa [same2] using hp
    subst this
    obtain ⟨rfl, rfl, rfl⟩ := sameReads.same hr
    refine ⟨textA, textA_eq, fun h => (by cases h), fun fo => ?_, fun _ => rfl⟩
    show (Utf8.encode textA).length ≤ 1000000
    decide +kernel

/-- C98 applied: the same two processes, when they have ended. -/
example : gapEnd.2.files place = some (Utf8.encode textA) := by
  refine C98_together exEnv same2 place _ same_agree emptyWorld _ _ gapEnd_together (fun i l hi => ?_) 0 sameProc [] failConfig exA rfl sameReads ?_ ?_
  · match i with
    | 0 =>
      have : gapEnd.1 0 = some [] := by decide +kernel
      rw [this] at hi; cases hi; rfl
    | 1 =>
      have : gapEnd.1 1 = some [] := by decide +kernel
      rw [this] at hi; cases hi; rfl
    | i + 2 =>
      rw [together_lt gapEnd_together (by simp [same2])] at hi; cases hi
  · refine .store (dir := str% "/s") (.inl rfl) (by decide) ((inStore_iff (by decide +kernel)).mpr ?_)
    decide +kernel
  · decide +kernel

/-- **C98 is about equal texts.** If two processes store the same module with different header lines, the file can hold neither text, but one of
them followed by the end of the other. -/
theorem C98_mixed_witness : ∃ st out' t, Together exEnv mixed2 emptyWorld st out' ∧ (∀ i, i < 2 → st i = some []) ∧
    out'.files place = some (Utf8.encode (textA ++ str% " 10 20 0\nSTACK CFI 1\n")) ∧
    exA.display (some otherInfo) = .ok t ∧ t ≠ textA ++ str% " 10 20 0\nSTACK CFI 1\n" :=
  ⟨_, _, str% "MODULE Linux x86_64 E1 lib.so\nINFO RELEASE nightly\nFILE 0 /c/y.c\nFUNC 2000 10 0 b()\n2000 10 20 0\nSTACK CFI 1\n", mixEnd_together,
    by decide +kernel, by decide +kernel, by decide +kernel, by decide +kernel⟩

end Run
end DumpSyms
