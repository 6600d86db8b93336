import Verif.Model.WinTogether
import Verif.Props.Together
import Verif.Props.WinMoments
/-!
# C129: processes that store the same module at the same time on a Windows machine
-/
namespace DumpSyms
namespace WinHost
open WinPath
open Dumper (Env Config)
open Run (Proc Move actionOf)
open Output (FileOutput Out IoEnv Todo Program Covers Right Fresh opening todoTo todoTo_fits program_todoTo program_mkdirs make_seen make_dest make_other writeSeen)

/-- The calls of a module that can be written: they write its text to what is asked for. -/
theorem program_calls {io : IoEnv} {extra : Option (List Str)} {out : Out} {checkCfi : Bool} {o : ObjectInfo} {t : Str} (hs : PlainStore out) (hn : WinProper o.fileName)
    (hi : WinProper o.debugId)
    (hcfi : checkCfi = true → o.stack ≠ []) (ht : o.display extra = .ok t) (hch : (io.chunks t).flatten = Utf8.encode t)
    (hm : ∀ d, io.mkdirs d = true) (hc : ∀ p, io.create p = true) (hr : ∀ fo, (Utf8.encode t).length ≤ io.room fo) (q : Str) (b : Bytes)
    (hb : Requested out o (.path q) → Utf8.encode t = b) :
    Program q b (callsOf io extra out checkCfi o) ∧ (Requested out o (.path q) → .create q ∈ callsOf io extra out checkCfi o) := by
  rw [requested_iff hs hn hi] at hb ⊢
  unfold callsOf todoOf
  rw [if_neg (by
    intro h
    simp only [ObjectInfo.hasStack, Bool.not_not, Bool.and_eq_true, List.isEmpty_iff] at h
    exact hcfi h.1 h.2)]
  have hfile : ∀ fo, (destinations out o).1 = some fo → Program q b (opening fo ++ [.write fo 0 (Utf8.encode t)]) :=
    fun fo hfo => program_todoTo fun e => hb (.inl (by rw [hfo, e]))
  have hstore : ∀ p, (destinations out o).2 = some p → ∃ d, todoStore io (.ok t) p = (.ok (), .mkdirs d :: ([.create p] ++ [.write (.path p) 0 (Utf8.encode t)])) := by
    intro p hp
    obtain ⟨d, hd⟩ : ∃ d, parent p = some d := by
      obtain ⟨dir, h1, h2, h3⟩ := dest_store hp
      rw [h3]
      exact store_parent (hs _ h1 h2) hn hi
    refine ⟨d, ?_⟩
    unfold todoStore
    simp only [hd, hm, if_true, todoTo_fits hc hch (hr _), opening]
  have hst : ∀ p, (destinations out o).2 = some p → ∀ d, Program q b (.mkdirs d :: ([.create p] ++ [.write (.path p) 0 (Utf8.encode t)])) := by
    intro p hp d
    exact (program_mkdirs q b d).append (program_todoTo (fo := .path p) fun e => hb (.inr ⟨p, hp, e.symm⟩))
  simp only [ht]
  cases h2 : (destinations out o).2 with
  | none =>
    simp only
    cases h1 : (destinations out o).1 with
    | none => exact ⟨.nil q b, by rintro (h | ⟨p, h, _⟩) <;> cases h⟩
    | some fo =>
      simp only [todoTo_fits hc hch (hr fo), List.nil_append]
      refine ⟨hfile fo h1, ?_⟩
      rintro (h | ⟨p, h, _⟩)
      · cases h; simp [opening]
      · cases h
  | some p =>
    obtain ⟨d, hd⟩ := hstore p h2
    simp only [hd]
    cases h1 : (destinations out o).1 with
    | none =>
      refine ⟨hst p h2 d, ?_⟩
      rintro (h | ⟨p', h, e⟩)
      · cases h
      · cases h; cases e; simp
    | some fo =>
      simp only [todoTo_fits hc hch (hr fo)]
      refine ⟨(hst p h2 d).append (hfile fo h1), ?_⟩
      rintro (h | ⟨p', h, e⟩)
      · cases h; simp [opening]
      · cases h; cases e; simp

/-- The calls of a module create what they write. -/
theorem fresh_calls (io : IoEnv) (extra : Option (List Str)) (out : Out) (checkCfi : Bool) (o : ObjectInfo) (q : Str) :
    Fresh q (callsOf io extra out checkCfi o) := by
  have hopen : ∀ fo, Fresh q (opening fo) := by
    intro fo pre pos x post e
    cases fo with
    | path p => cases pre with
      | nil => cases e
      | cons a pre => cases pre <;> cases e
    | stdout => cases pre <;> cases e
    | stderr => cases pre <;> cases e
  have hmk : ∀ d, Fresh q [.mkdirs d] := by
    intro d pre pos x post e
    cases pre with
    | nil => cases e
    | cons a pre => cases pre <;> cases e
  have hto : ∀ text fo, Fresh q (todoTo io text fo).2 := by
    intro text fo
    unfold todoTo
    split
    · cases text with
      | ok t =>
        simp only
        cases fo with
        | path p =>
          intro pre pos x post e
          simp only [opening, List.cons_append, List.nil_append] at e
          cases pre with
          | nil => cases e
          | cons a pre =>
            simp only [List.cons_append, List.cons.injEq] at e
            obtain ⟨rfl, e⟩ := e
            cases pre with
            | nil =>
              simp only [List.nil_append, List.cons.injEq, Todo.write.injEq, FileOutput.path.injEq] at e
              rw [e.1.1]; simp
            | cons a pre => cases pre <;> cases e
        | stdout =>
          intro pre pos x post e
          cases pre with
          | nil => cases e
          | cons a pre => cases pre <;> cases e
        | stderr =>
          intro pre pos x post e
          cases pre with
          | nil => cases e
          | cons a pre => cases pre <;> cases e
      | err m => exact hopen fo
      | panic => exact hopen fo
    · exact .nil q
  have hst : ∀ text p, Fresh q (todoStore io text p).2 := by
    intro text p
    unfold todoStore
    split
    · exact .nil q
    · split
      · exact (hmk _).append (hto text (.path p))
      · exact .nil q
  unfold callsOf todoOf
  split
  · exact .nil q
  · simp only
    have h1 : Fresh q (match (destinations out o).2 with
        | some p => todoStore io (o.display extra) p
        | none => (.ok (), [])).2 := by
      split
      · exact hst _ _
      · exact .nil q
    split
    · split
      · exact h1.append (hto _ _)
      · exact h1
    · exact h1

theorem Reads.same {env : Env} {p : Proc} {extra extra' : List Str} {c c' : Config} {m m' : ObjectInfo} (h : Reads env p extra c m)
    (h' : Reads env p extra' c' m') : extra' = extra ∧ c' = c ∧ m' = m := by
  obtain ⟨a1, a2, f, a3, a4⟩ := h
  obtain ⟨b1, b2, g, b3, b4⟩ := h'
  rw [a1] at b1; cases b1
  rw [a2] at b2; cases b2
  rw [a3] at b3; cases b3
  rw [a4] at b4; cases b4
  exact ⟨rfl, rfl, rfl⟩

/-- What is required of the processes: each can write its module, and those that write to the file `q` write `b` to it.  The modules
have names and identifiers Windows allows, and the stores are not verbatim. -/
structure Agree (env : Env) (ps : List Proc) (q : Str) (b : Bytes) : Prop where
  parts : ∀ t, (env.io.chunks t).flatten = Utf8.encode t
  mkdirs : ∀ d, env.io.mkdirs d = true
  create : ∀ p, env.io.create p = true
  each : ∀ p ∈ ps, ∀ extra c m, Reads env p extra c m → PlainStore c.output ∧ WinProper m.fileName ∧ WinProper m.debugId ∧ ∃ t, m.display (some extra) = .ok t ∧ (c.checkCfi = true → m.stack ≠ []) ∧
    (∀ fo, (Utf8.encode t).length ≤ env.io.room fo) ∧ (Requested c.output m (.path q) → Utf8.encode t = b)

theorem together_program {env : Env} {ps : List Proc} {q : Str} {b : Bytes} (ha : Agree env ps q b) {out out' : Output.World} {st : Nat → Option (List Todo)}
    (h : Together env ps out st out') {i : Nat} {l : List Todo} (hi : st i = some l) : Program q b l := by
  induction h generalizing i l with
  | start => cases hi
  | read st out' j p extra c m h hj hs hr ih =>
    by_cases hij : i = j
    · simp only [hij, if_true, Option.some.injEq] at hi
      subst hi
      obtain ⟨hs', hn, hi', t, h1, h2, h3, h4⟩ := ha.each p (List.mem_of_getElem? hj) extra c m hr
      exact (program_calls hs' hn hi' h2 h1 (ha.parts t) ha.mkdirs ha.create h3 q b h4).1
    · simp only [hij, if_false] at hi
      exact ih hi
  | call st out' j k t ts h hs hk ih =>
    by_cases hij : i = j
    · simp only [hij, if_true, Option.some.injEq] at hi
      subst hi
      exact (ih hs).make k out'
    · simp only [hij, if_false] at hi
      exact ih hi

/-- Before the file is created by one of the processes, it is what it was. -/
structure Before (env : Env) (ps : List Proc) (q : Str) (out out' : Output.World) (st : Nat → Option (List Todo)) : Prop where
  same : out'.files q = out.files q
  fresh : ∀ i l, st i = some l → Fresh q l
  asked : ∀ i p extra c m l, ps[i]? = some p → Reads env p extra c m → Requested c.output m (.path q) → st i = some l → .create q ∈ l

theorem together_inv {env : Env} {ps : List Proc} {q : Str} {b : Bytes} (ha : Agree env ps q b) {out out' : Output.World} {st : Nat → Option (List Todo)}
    (h : Together env ps out st out') :
    Before env ps q out out' st ∨ ((out'.files q).isSome = true ∧ Right q b (fun l => ∃ i, st i = some l) (out'.files q)) := by
  induction h with
  | start => exact .inl ⟨rfl, fun i l h => (by cases h), fun i p extra c m l _ _ _ h => by cases h⟩
  | read st out' j p extra c m h hj hs hr ih =>
    rcases ih with ih | ⟨h1, h2⟩
    · refine .inl ⟨ih.same, fun i l hi => ?_, fun i p' extra' c' m' l hi hr' hreq hl => ?_⟩
      · by_cases hij : i = j
        · simp only [hij, if_true, Option.some.injEq] at hi
          subst hi
          exact fresh_calls _ _ _ _ _ q
        · simp only [hij, if_false] at hi
          exact ih.fresh i l hi
      · by_cases hij : i = j
        · simp only [hij, if_true, Option.some.injEq] at hl hi
          subst hl
          rw [hj] at hi; cases hi
          obtain ⟨rfl, rfl, rfl⟩ := hr.same hr'
          obtain ⟨hs', hn, hi', t, h1, h2, h3, h4⟩ := ha.each p (List.mem_of_getElem? hj) _ _ _ hr
          exact (program_calls hs' hn hi' h2 h1 (ha.parts t) ha.mkdirs ha.create h3 q b h4).2 hreq
        · simp only [hij, if_false] at hl
          exact ih.asked i p' extra' c' m' l hi hr' hreq hl
    · refine .inr ⟨h1, h2.size, fun n hn => ?_⟩
      rcases h2.byte n hn with h | ⟨l, ⟨i, hi⟩, hl⟩
      · exact .inl h
      · have hij : i ≠ j := by rintro rfl; rw [hs] at hi; cases hi
        exact .inr ⟨l, ⟨i, by simp only [hij, if_false]; exact hi⟩, hl⟩
  | call st out' j k t ts h hs hk ih =>
    have hp := together_program ha h hs
    have hseen := make_seen (.path q) k t out'
    rcases ih with ih | ⟨h1, h2⟩
    · have hfr := ih.fresh j _ hs
      by_cases ht : t = .create q
      · subst ht
        right
        have : ((Todo.create q).make k out').2.files q = some [] := by
          have := hseen
          simp only [Todo.after, if_true] at this
          exact this
        rw [this]
        refine ⟨rfl, by simp, fun n hn => .inr ⟨ts, ⟨j, by simp [Todo.make]⟩, 0, b, hp.all [] ts rfl, by omega, by omega⟩⟩
      · left
        have hne : ∀ pos x, t ≠ .write (.path q) pos x := by
          rintro pos x rfl
          have := hfr [] pos x ts rfl
          cases this
        have hmk : Fresh q (t.make k out').1 := by
          cases t with
          | mkdirs d => exact .nil q
          | create p => exact .nil q
          | write fo pos x =>
            simp only [Todo.make]
            split
            · intro pre pos' x' post e
              cases pre with
              | nil => cases e; exact absurd rfl (hne pos x)
              | cons a pre => cases pre <;> cases e
            · exact .nil q
        have htail : Fresh q ts := by
          intro pre pos x post e
          have := hfr (t :: pre) pos x post (by rw [e]; rfl)
          rcases List.mem_cons.mp this with h | h
          · exact absurd h.symm ht
          · exact h
        refine ⟨?_, fun i l hi => ?_, fun i p extra c m l hi hr hreq hl => ?_⟩
        · rw [← ih.same]
          refine Eq.trans hseen ?_
          cases t with
          | mkdirs d => rfl
          | create p =>
            simp only [Todo.after]
            rw [if_neg (by rintro e; cases e; exact ht rfl)]
            rfl
          | write fo pos x =>
            simp only
            rw [if_neg (by rintro rfl; exact hne pos x rfl)]
            rfl
        · by_cases hij : i = j
          · simp only [hij, if_true, Option.some.injEq] at hi
            subst hi
            exact hmk.append htail
          · simp only [hij, if_false] at hi
            exact ih.fresh i l hi
        · by_cases hij : i = j
          · simp only [hij, if_true, Option.some.injEq] at hl
            subst hl hij
            have := ih.asked i p extra c m _ hi hr hreq hs
            rcases List.mem_cons.mp this with h | h
            · exact absurd h.symm ht
            · exact List.mem_append_right _ h
          · simp only [hij, if_false] at hl
            exact ih.asked i p extra c m l hi hr hreq hl
    · right
      have hold : Right q b (fun l => l = t :: ts ∨ ∃ i, i ≠ j ∧ st i = some l) (out'.seen (.path q)) := by
        refine ⟨h2.size, fun n hn => ?_⟩
        rcases h2.byte n hn with h | ⟨l, ⟨i, hi⟩, hl⟩
        · exact .inl h
        · by_cases hij : i = j
          · rw [hij, hs] at hi; cases hi
            exact .inr ⟨_, .inl rfl, hl⟩
          · exact .inr ⟨l, .inr ⟨i, hij, hi⟩, hl⟩
      have hnew := hold.make hp k
      refine ⟨?_, hnew.size, fun n hn => ?_⟩
      · show ((t.make k out').2.seen (.path q)).isSome = true
        rw [hseen]
        have h1 : (out'.seen (.path q)).isSome = true := h1
        cases t with
        | mkdirs d => exact h1
        | create p => simp only [Todo.after]; split <;> simp [h1]
        | write fo pos x => simp only; split <;> simp [h1, writeSeen]
      · rcases hnew.byte n hn with h | ⟨l, hl, hc⟩
        · exact .inl h
        · rcases hl with rfl | ⟨i, hij, hi⟩
          · exact .inr ⟨_, ⟨j, by simp⟩, hc⟩
          · exact .inr ⟨l, ⟨i, by simp only [hij, if_false]; exact hi⟩, hc⟩

/-- **C129.**  Processes that run at the same time and write the same bytes to a file leave exactly these bytes, in whatever order their calls are
made and however many bytes each call takes. -/
theorem C129_together (env : Env) (ps : List Proc) (q : Str) (b : Bytes) (ha : Agree env ps q b) (out out' : Output.World) (st : Nat → Option (List Todo))
    (h : Together env ps out st out') (hdone : ∀ i l, st i = some l → l = []) (i : Nat) (p : Proc) (extra : List Str) (c : Config) (m : ObjectInfo)
    (hi : ps[i]? = some p) (hr : Reads env p extra c m) (hreq : Requested c.output m (.path q)) (hsome : st i ≠ none) : out'.files q = some b := by
  rcases together_inv ha h with hb | ⟨h1, h2⟩
  · obtain ⟨l, hl⟩ := Option.ne_none_iff_exists'.mp hsome
    have := hb.asked i p extra c m l hi hr hreq hl
    rw [hdone i l hl] at this
    cases this
  · obtain ⟨f, hf⟩ := Option.isSome_iff_exists.mp h1
    rw [hf] at h2 ⊢
    congr 1
    refine List.ext_getElem? fun n => ?_
    rcases Nat.lt_or_ge n b.length with hn | hn
    · rcases h2.byte n hn with h | ⟨l, ⟨i, hi⟩, pos, x, hm, _⟩
      · exact h
      · rw [hdone i l hi] at hm; cases hm
    · rw [List.getElem?_eq_none hn]
      exact List.getElem?_eq_none (Nat.le_trans (show f.length ≤ b.length from h2.size) hn)

/-- **C129, the rest.** A file that none of the processes is to write to is left as it was, at every moment. -/
theorem C129_untouched (env : Env) (ps : List Proc) (q : Str) (hno : ∀ p ∈ ps, ∀ extra c m, Reads env p extra c m → PlainStore c.output ∧ WinProper m.fileName ∧ WinProper m.debugId ∧ ¬ Requested c.output m (.path q))
    (out out' : Output.World) (st : Nat → Option (List Todo)) (h : Together env ps out st out') : out'.files q = out.files q := by
  have key : (∀ i l, st i = some l → ∀ t ∈ l, t.dest ≠ some (.path q)) ∧ out'.seen (.path q) = out.seen (.path q) := by
    induction h with
    | start => exact ⟨fun i l h => (by cases h), rfl⟩
    | read st out' j p extra c m h hj hs hr ih =>
      refine ⟨fun i l hi t ht hd => ?_, ih.2⟩
      by_cases hij : i = j
      · simp only [hij, if_true, Option.some.injEq] at hi
        subst hi
        obtain ⟨h1, h2, h3, h4⟩ := hno p (List.mem_of_getElem? hj) extra c m hr
        exact h4 (todoOf_dest h1 h2 h3 ht hd)
      · simp only [hij, if_false] at hi
        exact ih.1 i l hi t ht hd
    | call st out' j k t ts h hs hk ih =>
      obtain ⟨h1, h2⟩ := ih
      refine ⟨fun i l hi u hu hd => ?_, ?_⟩
      · by_cases hij : i = j
        · simp only [hij, if_true, Option.some.injEq] at hi
          subst hi
          rcases List.mem_append.mp hu with hu | hu
          · rw [make_dest k t out' u hu] at hd
            exact h1 j _ hs t (by simp) hd
          · exact h1 j _ hs u (by simp [hu]) hd
        · simp only [hij, if_false] at hi
          exact h1 i l hi u hu hd
      · rw [make_other (h1 j _ hs t (by simp))]
        exact h2
  exact key.2

theorem together_lt {env : Env} {ps : List Proc} {out out' : Output.World} {st : Nat → Option (List Todo)} (h : Together env ps out st out') {i : Nat}
    (hi : ps.length ≤ i) : st i = none := by
  induction h with
  | start => rfl
  | read st out' j p extra c m h hj hs hr ih =>
    have hij : i ≠ j := by
      rintro rfl
      rw [List.getElem?_eq_none hi] at hj; cases hj
    simp only [hij, if_false]; exact ih
  | call st out' j k t ts h hs hk ih =>
    have hij : i ≠ j := by
      rintro rfl
      rw [ih] at hs; cases hs
    simp only [hij, if_false]; exact ih

/-! ## Samples -/

theorem moves_together {env : Env} {ps : List Proc} {out : Output.World} {calls : Nat → List Todo}
    (hc : ∀ i, ps.length ≤ i ∨ ∃ p extra c m, ps[i]? = some p ∧ Reads env p extra c m ∧ calls i = callsOf env.io (some extra) c.output c.checkCfi m)
    (ms : List Move) (hm : ∀ i, .reads i ∈ ms → i < ps.length) {r : (Nat → Option (List Todo)) × Output.World} (h : Together env ps out r.1 r.2) :
    Together env ps out (Run.moves calls ms r).1 (Run.moves calls ms r).2 := by
  induction ms generalizing r with
  | nil => exact h
  | cons a ms ih =>
    have hm' : ∀ i, .reads i ∈ ms → i < ps.length := fun i hi => hm i (by simp [hi])
    cases a with
    | reads i =>
      refine ih hm' ?_
      split
      · rename_i hn
        rcases hc i with hlt | ⟨p, extra, c, m, h1, h2, h3⟩
        · exact absurd (hm i (by simp)) (by omega)
        · rw [h3]; exact .read r.1 r.2 i p extra c m h h1 (by simpa using hn) h2
      · exact h
    | makes i k =>
      refine ih hm' ?_
      split
      · rename_i t ts hs
        split
        · rename_i hk; exact .call r.1 r.2 i k t ts h hs hk
        · exact h
      · exact h

/-- Two processes that dump the same library into the same store, and one whose symbol file has another header line. -/
def winSameProc : Proc := ⟨str% "2.3.4", 8, winOptions [str% "C:\\d\\a"], winTwoDisk⟩
def winOtherProc : Proc := { winSameProc with options := { winOptions [str% "C:\\d\\a"] with extraInfo := some [str% "RELEASE nightly"] } }
def winProcCalls (extra : List Str) : List Todo := callsOf winEnv.io (some extra) winFailConfig.output winFailConfig.checkCfi winA

theorem winSameReads : Reads winEnv winSameProc [] winFailConfig winA := ⟨rfl, rfl, _, rfl, rfl⟩
theorem winOtherReads : Reads winEnv winOtherProc [str% "RELEASE nightly"] winFailConfig winA := ⟨rfl, rfl, _, rfl, rfl⟩

def winPlace : Str := str% "C:\\store\\lib.so\\E1\\lib.so.sym"

def winSame2 : List Proc := [winSameProc, winSameProc]
def winMixed2 : List Proc := [winSameProc, winOtherProc]
def winOtherInfo : List Str := [str% "RELEASE nightly"]

/-- The first process has written a part when the second creates the file, which empties it; the first one goes on where it was. -/
def winGapMoves : List Move := [.reads 0, .makes 0 1, .makes 0 1, .makes 0 40, .reads 1, .makes 1 1, .makes 1 1, .makes 0 10]
def winSameCalls : Nat → List Todo := fun _ => winProcCalls []
def winMixedCalls : Nat → List Todo := fun i => if i = 0 then winProcCalls [] else winProcCalls winOtherInfo

theorem winSame_calls (i : Nat) : winSame2.length ≤ i ∨ ∃ p extra c m, winSame2[i]? = some p ∧ Reads winEnv p extra c m ∧
    winSameCalls i = callsOf winEnv.io (some extra) c.output c.checkCfi m := by
  match i with
  | 0 => exact .inr ⟨_, _, _, _, rfl, winSameReads, rfl⟩
  | 1 => exact .inr ⟨_, _, _, _, rfl, winSameReads, rfl⟩
  | i + 2 => exact .inl (by simp [winSame2])

theorem winMixed_calls (i : Nat) : winMixed2.length ≤ i ∨ ∃ p extra c m, winMixed2[i]? = some p ∧ Reads winEnv p extra c m ∧
    winMixedCalls i = callsOf winEnv.io (some extra) c.output c.checkCfi m := by
  match i with
  | 0 => exact .inr ⟨_, _, _, _, rfl, winSameReads, rfl⟩
  | 1 => exact .inr ⟨_, _, _, _, rfl, winOtherReads, rfl⟩
  | i + 2 => exact .inl (by simp [winMixed2])

def winTextA : Str := str% "MODULE Linux x86_64 E1 lib.so\nFILE 0 /c/y.c\nFUNC 2000 10 0 b()\n2000 10 20 0\nSTACK CFI 1\n"
theorem winTextA_eq : winA.display (some []) = .ok winTextA := by decide +kernel

def winNobody : (Nat → Option (List Todo)) × Output.World := (fun _ => none, Output.emptyWorld)
def winGap : (Nat → Option (List Todo)) × Output.World := Run.moves winSameCalls winGapMoves winNobody
def winGapEnd : (Nat → Option (List Todo)) × Output.World := Run.moves winSameCalls [.makes 1 1000, .makes 0 1000] winGap
def winMixEnd : (Nat → Option (List Todo)) × Output.World :=
  Run.moves winMixedCalls [.reads 0, .makes 0 1, .makes 0 1, .reads 1, .makes 1 1, .makes 1 1, .makes 1 1000, .makes 0 1000] winNobody

theorem winGap_together : Together winEnv winSame2 Output.emptyWorld winGap.1 winGap.2 :=
  moves_together winSame_calls winGapMoves (by intro i hi; simp [winGapMoves] at hi; rcases hi with rfl | rfl <;> decide) .start

theorem winGapEnd_together : Together winEnv winSame2 Output.emptyWorld winGapEnd.1 winGapEnd.2 :=
  moves_together winSame_calls _ (by intro i hi; simp at hi) winGap_together

theorem winMixEnd_together : Together winEnv winMixed2 Output.emptyWorld winMixEnd.1 winMixEnd.2 :=
  moves_together winMixed_calls _ (by intro i hi; simp at hi; rcases hi with rfl | rfl <;> decide) .start

/-- **C129, meanwhile.** Until the processes have ended, the file need not be a beginning of the symbol file: here it begins with 40 zeros. -/
theorem C129_gap_witness : ∃ st out' part, Together winEnv winSame2 Output.emptyWorld st out' ∧ out'.files winPlace = some (List.replicate 40 0 ++ part) ∧ part.length = 10 :=
  ⟨_, _, (Utf8.encode winTextA).extract 40 50, winGap_together, by decide +kernel, by decide +kernel⟩

theorem winSame_agree : Agree winEnv winSame2 winPlace (Utf8.encode winTextA) where
  parts := by simp [winEnv, Dumper.exEnv, Output.goodDisk, Output.fullDisk]
  mkdirs := by simp [winEnv, Dumper.exEnv, Output.goodDisk, Output.fullDisk]
  create := by simp [winEnv, Dumper.exEnv, Output.goodDisk, Output.fullDisk]
  each := by
    intro p hp extra c m hr
    have : p = winSameProc := by simpa [winSame2] using hp
    subst this
    obtain ⟨rfl, rfl, rfl⟩ := winSameReads.same hr
    refine ⟨winStore_plain, winNames.1.1, winNames.1.2, winTextA, winTextA_eq, fun h => (by cases h), fun fo => ?_, fun _ => rfl⟩
    show (Utf8.encode winTextA).length ≤ 1000000
    decide +kernel

/-- C129 applied: the same two processes, when they have ended. -/
example : winGapEnd.2.files winPlace = some (Utf8.encode winTextA) := by
  refine C129_together winEnv winSame2 winPlace _ winSame_agree Output.emptyWorld _ _ winGapEnd_together (fun i l hi => ?_) 0 winSameProc [] winFailConfig winA rfl winSameReads ?_ ?_
  · match i with
    | 0 =>
      have : winGapEnd.1 0 = some [] := by decide +kernel
      rw [this] at hi; cases hi; rfl
    | 1 =>
      have : winGapEnd.1 1 = some [] := by decide +kernel
      rw [this] at hi; cases hi; rfl
    | i + 2 =>
      rw [together_lt winGapEnd_together (by simp [winSame2])] at hi; cases hi
  · refine .store (dir := str% "C:\\store") (.inl rfl) (by decide) ((inStore_iff (winStore_plain _ (.inl rfl) (by decide)) winNames.1.1 winNames.1.2).mpr ?_)
    decide +kernel
  · decide +kernel

/-- C129 applied to a file that none of the two is to write, while they are at work. -/
example (p : Str) (h : ¬ InStore (str% "C:\\store") (str% "lib.so") (str% "E1") p) : winGap.2.files p = none :=
  C129_untouched winEnv winSame2 p (by
    intro q hq extra c m hr
    have : q = winSameProc := by simpa [winSame2] using hq
    subst this
    obtain ⟨rfl, rfl, rfl⟩ := winSameReads.same hr
    refine ⟨winStore_plain, winNames.1.1, winNames.1.2, fun hreq => ?_⟩
    cases hreq with
    | file e => rcases e with e | ⟨d, e⟩ <;> cases e
    | store e _ hin => rcases e with e | ⟨fo, e⟩ <;> cases e; exact h hin) _ _ _ winGap_together

/-- **C129 is about equal texts.** If two processes store the same module with different header lines, the file can hold neither text, but one of
them followed by the end of the other. -/
theorem C129_mixed_witness : ∃ st out' t, Together winEnv winMixed2 Output.emptyWorld st out' ∧ (∀ i, i < 2 → st i = some []) ∧
    out'.files winPlace = some (Utf8.encode (winTextA ++ str% " 10 20 0\nSTACK CFI 1\n")) ∧
    winA.display (some winOtherInfo) = .ok t ∧ t ≠ winTextA ++ str% " 10 20 0\nSTACK CFI 1\n" :=
  ⟨_, _, str% "MODULE Linux x86_64 E1 lib.so\nINFO RELEASE nightly\nFILE 0 /c/y.c\nFUNC 2000 10 0 b()\n2000 10 20 0\nSTACK CFI 1\n", winMixEnd_together,
    by decide +kernel, by decide +kernel, by decide +kernel, by decide +kernel⟩

end WinHost
end DumpSyms
