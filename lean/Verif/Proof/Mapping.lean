import Verif.Spec.Mapping
/-!
# Proofs about path mappings
-/
namespace DumpSyms
namespace Mapping

/-! ## Cutting a destination -/

theorem NoPair.nil : NoPair [] := by
  intro a b h ha
  have := (List.append_eq_nil_iff.mp h.symm).2
  simp [this]

theorem noPair_cons {c : Char} {t : Str} : NoPair (c :: t) ↔ NoPair t ∧ (c = '{' → '}' ∉ t) := by
  constructor
  · intro h
    refine ⟨fun a b e ha => h (c :: a) b (by rw [e]; rfl) (List.mem_cons_of_mem _ ha), ?_⟩
    rintro rfl
    exact h ['{'] t rfl (by simp)
  · rintro ⟨h1, h2⟩ a b e ha
    cases a with
    | nil => cases ha
    | cons d a =>
      simp only [List.cons_append, List.cons.injEq] at e
      obtain ⟨rfl, rfl⟩ := e
      rcases List.mem_cons.mp ha with rfl | ha
      · intro hb; exact h2 rfl (List.mem_append_right _ hb)
      · exact h1 a b rfl ha

theorem NoPair.of_append {a b : Str} (h : NoPair (a ++ b)) : NoPair a := by
  intro x y e hx hy
  exact h x (y ++ b) (by rw [e]; simp) hx (List.mem_append_left _ hy)

theorem noPair_of_not_mem {t : Str} (h : '}' ∉ t) : NoPair t := by
  intro a b e _ hb
  exact h (by rw [e]; exact List.mem_append_right _ hb)

theorem first_close (t : Str) : NoPair t ∨ ∃ a b, t = a ++ '}' :: b ∧ '{' ∈ a ∧ NoPair a := by
  induction t with
  | nil => exact .inl NoPair.nil
  | cons c t ih =>
    by_cases hc : c = '{'
    · subst hc
      by_cases ht : '}' ∈ t
      · obtain ⟨a, b, rfl, ha⟩ := List.eq_append_cons_of_mem ht
        exact .inr ⟨'{' :: a, b, rfl, by simp, noPair_cons.mpr ⟨noPair_of_not_mem ha, fun _ => ha⟩⟩
      · exact .inl (noPair_cons.mpr ⟨noPair_of_not_mem ht, fun _ => ht⟩)
    · rcases ih with h | ⟨a, b, rfl, ha, hn⟩
      · exact .inl (noPair_cons.mpr ⟨h, fun e => absurd e hc⟩)
      · exact .inr ⟨c :: a, b, rfl, List.mem_cons_of_mem _ ha, noPair_cons.mpr ⟨hn, fun e => absurd e hc⟩⟩

theorem last_open {a : Str} (h : '{' ∈ a) : ∃ l x, a = l ++ '{' :: x ∧ '{' ∉ x := by
  obtain ⟨x, l, e, hx⟩ := List.eq_append_cons_of_mem (List.mem_reverse.mpr h)
  refine ⟨l.reverse, x.reverse, ?_, by simpa using hx⟩
  have := congrArg List.reverse e
  simpa using this

/-- Every destination can be cut. -/
theorem cut_exists (dest : Str) : ∃ pairs tail, Cut dest pairs tail := by
  generalize hn : dest.length = n
  induction n using Nat.strongRecOn generalizing dest with
  | _ n ih =>
    rcases first_close dest with h | ⟨a, b, rfl, ha, hna⟩
    · exact ⟨[], dest, by simp, by simp, by simp, h⟩
    · obtain ⟨l, x, rfl, hx⟩ := last_open ha
      obtain ⟨pairs, tail, hc⟩ := ih b.length (by subst hn; simp; omega) b rfl
      refine ⟨(l, x) :: pairs, tail, ?_, ?_, ?_, hc.last⟩
      · rw [hc.concat]; simp
      · intro p hp
        rcases List.mem_cons.mp hp with rfl | hp
        · exact hna.of_append
        · exact hc.literals p hp
      · intro p hp
        rcases List.mem_cons.mp hp with rfl | hp
        · exact ⟨hx, hna (l ++ ['{']) x (by simp) (by simp)⟩
        · exact hc.actions p hp

theorem block_noPair {l x : Str} (hl : NoPair l) (hx : '}' ∉ x) : NoPair (l ++ '{' :: x) := by
  induction l with
  | nil => exact noPair_cons.mpr ⟨noPair_of_not_mem hx, fun _ => hx⟩
  | cons c l ih =>
    obtain ⟨h1, h2⟩ := noPair_cons.mp hl
    refine noPair_cons.mpr ⟨ih h1, fun e => ?_⟩
    have := h2 e
    simp [this, hx]

theorem first_close_unique {a a' b b' : Str} (e : a ++ '}' :: b = a' ++ '}' :: b') (ha : '{' ∈ a) (ha' : '{' ∈ a')
    (hn : NoPair a) (hn' : NoPair a') : a = a' ∧ b = b' := by
  rcases List.append_eq_append_iff.mp e with ⟨c, rfl, e2⟩ | ⟨c, rfl, e2⟩
  · cases c with
    | nil => simp at e2; exact ⟨by simp, e2⟩
    | cons d c =>
      simp only [List.cons_append, List.cons.injEq] at e2
      exact absurd (by rw [← e2.1]; simp) (hn' a (d :: c) rfl ha)
  · cases c with
    | nil => simp at e2; exact ⟨by simp, e2.symm⟩
    | cons d c =>
      simp only [List.cons_append, List.cons.injEq] at e2
      exact absurd (by rw [← e2.1]; simp) (hn a' (d :: c) rfl ha')

theorem last_open_unique {l l' x x' : Str} (e : l ++ '{' :: x = l' ++ '{' :: x') (hx : '{' ∉ x) (hx' : '{' ∉ x') :
    l = l' ∧ x = x' := by
  rcases List.append_eq_append_iff.mp e with ⟨c, rfl, e2⟩ | ⟨c, rfl, e2⟩
  · cases c with
    | nil => simp at e2; exact ⟨by simp, e2⟩
    | cons d c =>
      simp only [List.cons_append, List.cons.injEq] at e2
      exact absurd (by rw [e2.2]; simp) hx
  · cases c with
    | nil => simp at e2; exact ⟨by simp, e2.symm⟩
    | cons d c =>
      simp only [List.cons_append, List.cons.injEq] at e2
      exact absurd (by rw [e2.2]; simp) hx'

theorem cut_nil_cons {dest tail tail' : Str} {q : Str × Str} {qs : List (Str × Str)} (h : Cut dest [] tail)
    (h' : Cut dest (q :: qs) tail') : False := by
  have e := h.concat
  have e' := h'.concat
  simp only [List.flatMap_nil, List.nil_append] at e
  subst e
  simp only [List.flatMap_cons, List.append_assoc, List.cons_append, List.nil_append] at e'
  exact h.last (q.1 ++ ['{']) (q.2 ++ '}' :: ((qs.flatMap fun p => p.1 ++ '{' :: (p.2 ++ ['}'])) ++ tail')) (by simp [e'])
    (by simp) (by simp)

/-- A destination can be cut in one way only. -/
theorem cut_unique {dest tail tail' : Str} {ps qs : List (Str × Str)} (h : Cut dest ps tail) (h' : Cut dest qs tail') :
    ps = qs ∧ tail = tail' := by
  induction ps generalizing dest qs with
  | nil =>
    cases qs with
    | nil => exact ⟨rfl, by have := h.concat; have := h'.concat; simp_all⟩
    | cons q qs => exact (cut_nil_cons h h').elim
  | cons p ps ih =>
    cases qs with
    | nil => exact (cut_nil_cons h' h).elim
    | cons q qs =>
      have e := h.concat.symm.trans h'.concat
      simp only [List.flatMap_cons, List.append_assoc] at e
      have e1 : (p.1 ++ '{' :: p.2) ++ '}' :: ((ps.flatMap fun p => p.1 ++ '{' :: p.2 ++ ['}']) ++ tail) =
          (q.1 ++ '{' :: q.2) ++ '}' :: ((qs.flatMap fun p => p.1 ++ '{' :: p.2 ++ ['}']) ++ tail') := by
        simpa using e
      have hp := h.actions p (by simp)
      have hq := h'.actions q (by simp)
      obtain ⟨e2, e3⟩ := first_close_unique e1 (by simp) (by simp) (block_noPair (h.literals p (by simp)) hp.2)
        (block_noPair (h'.literals q (by simp)) hq.2)
      obtain ⟨e4, e5⟩ := last_open_unique e2 hp.1 hq.1
      obtain ⟨e6, e7⟩ := ih (dest := (ps.flatMap fun p => p.1 ++ '{' :: p.2 ++ ['}']) ++ tail)
        ⟨rfl, fun r hr => h.literals r (List.mem_cons_of_mem _ hr), fun r hr => h.actions r (List.mem_cons_of_mem _ hr),
          h.last⟩
        ⟨e3, fun r hr => h'.literals r (List.mem_cons_of_mem _ hr), fun r hr => h'.actions r (List.mem_cons_of_mem _ hr),
          h'.last⟩
      exact ⟨by rw [e6, Prod.ext e4 e5], e7⟩

/-! ## The scanner -/

theorem scan_append (vars : List (Str × Str)) (m : List Nat) (xs ys : List Nat) (i : Nat) (s : Scan) :
    scan vars m i (xs ++ ys) s = (scan vars m i xs s >>= scan vars m (i + xs.length) ys) := by
  induction xs generalizing i s with
  | nil => rfl
  | cons x xs ih =>
    simp only [List.cons_append, scan, List.length_cons]
    cases scanStep vars m i x s with
    | ok s' => simp only [Res.bind_ok, ih, Nat.add_assoc, Nat.add_comm 1]
    | err _ => rfl
    | panic => rfl

theorem scan_quiet (vars : List (Str × Str)) (m xs : List Nat) (i : Nat) (s : Scan) (h1 : '{'.toNat ∉ xs)
    (h2 : '}'.toNat ∉ xs) : scan vars m i xs s = .ok s := by
  induction xs generalizing i with
  | nil => rfl
  | cons x xs ih =>
    simp only [List.mem_cons, not_or] at h1 h2
    rw [scan, scanStep, if_neg (Ne.symm h1.1), if_neg (Ne.symm h2.1), Res.bind_ok, ih _ h1.2 h2.2]

theorem not_mem_encodeChar {c d : Char} (hd : d.toNat < 0x80) (h : c ≠ d) : d.toNat ∉ Utf8.encodeChar c :=
  fun hm => h (Utf8.encodeChar_ascii hd hm)

theorem not_mem_encode {t : Str} {d : Char} (hd : d.toNat < 0x80) (h : d ∉ t) : d.toNat ∉ Utf8.encode t := by
  intro hm
  obtain ⟨c, hc, hm⟩ := List.mem_flatMap.mp hm
  exact h (by rw [← Utf8.encodeChar_ascii hd hm]; exact hc)

/-- Scanning literal text changes neither the actions nor the start of the chunk. -/
theorem scan_literal (vars : List (Str × Str)) (m : List Nat) (t : Str) (i : Nat) (s : Scan) (hn : NoPair t)
    (ho : s.opened = true → '}' ∉ t) :
    ∃ ce op, scan vars m i (Utf8.encode t) s = .ok { s with chunkEnd := ce, opened := op } := by
  induction t generalizing i s with
  | nil => exact ⟨s.chunkEnd, s.opened, rfl⟩
  | cons c t ih =>
    obtain ⟨hnt, hc⟩ := noPair_cons.mp hn
    rw [Utf8.encode_cons, scan_append]
    by_cases h1 : c = '{'
    · subst h1
      rw [Utf8.encodeChar_of_ascii (by decide)]
      simp only [scan, scanStep, if_pos, Res.bind_ok]
      exact ih _ _ hnt (fun _ => hc rfl)
    · by_cases h2 : c = '}'
      · subst h2
        have : s.opened = false := by
          cases h : s.opened with
          | false => rfl
          | true => exact absurd (ho h) (by simp)
        rw [Utf8.encodeChar_of_ascii (by decide)]
        simp only [scan, scanStep, this, if_neg (show ¬ '}'.toNat = '{'.toNat by decide), if_pos, Bool.not_false, Res.bind_ok]
        refine ih _ _ hnt ?_
        rw [this]; intro h; cases h
      · rw [scan_quiet _ _ _ _ _ (not_mem_encodeChar (by decide) h1) (not_mem_encodeChar (by decide) h2), Res.bind_ok]
        exact ih _ _ hnt (fun h hm => ho h (List.mem_cons_of_mem _ hm))

theorem slice_mid (a b c : List Nat) : slice (a ++ (b ++ c)) a.length (a.length + b.length) = .ok b := by
  rw [slice, if_pos ⟨by omega, by simp⟩]
  simp

/-- Scanning `literal{action}`. -/
theorem scan_block (vars : List (Str × Str)) (pre post : List Nat) (l x : Str) (s : Scan) (hl : NoPair l)
    (hx : '{' ∉ x ∧ '}' ∉ x) (hc : s.chunkStart = pre.length) (ho : s.opened = false) :
    scan vars (pre ++ Utf8.encode (l ++ '{' :: x ++ ['}']) ++ post) pre.length (Utf8.encode (l ++ '{' :: x ++ ['}'])) s =
      (actionKind vars x >>= fun k => .ok
        { chunkStart := (pre ++ Utf8.encode (l ++ '{' :: x ++ ['}'])).length
          chunkEnd := pre.length + (Utf8.encode l).length, opened := false
          actions := s.actions ++ [{ kind := k, start := pre.length, stop := pre.length + (Utf8.encode l).length }] }) := by
  have e : Utf8.encode (l ++ '{' :: x ++ ['}']) = Utf8.encode l ++ ('{'.toNat :: (Utf8.encode x ++ ['}'.toNat])) := by
    rw [List.append_assoc, List.cons_append, Utf8.encode_append, Utf8.encode_cons, Utf8.encode_append,
      Utf8.encodeChar_of_ascii (by decide)]
    rfl
  generalize hm : pre ++ Utf8.encode (l ++ '{' :: x ++ ['}']) ++ post = m
  have hm' : m = (pre ++ Utf8.encode l ++ ['{'.toNat]) ++ (Utf8.encode x ++ ('}'.toNat :: post)) := by
    rw [← hm, e]; simp
  obtain ⟨ce, op, h1⟩ := scan_literal vars m l pre.length s hl (by rw [ho]; intro h; cases h)
  rw [e, scan_append, h1, Res.bind_ok, scan, scanStep, if_pos rfl, Res.bind_ok, scan_append,
    scan_quiet _ _ _ _ _ (not_mem_encode (by decide) hx.1) (not_mem_encode (by decide) hx.2), Res.bind_ok, scan, scanStep,
    if_neg (by decide), if_pos rfl]
  have hs : slice m (pre.length + (Utf8.encode l).length + 1)
      (pre.length + (Utf8.encode l).length + 1 + (Utf8.encode x).length) = .ok (Utf8.encode x) := by
    have := slice_mid (pre ++ Utf8.encode l ++ ['{'.toNat]) (Utf8.encode x) ('}'.toNat :: post)
    rw [← hm'] at this
    simpa [Nat.add_assoc] using this
  simp only [Bool.not_true, Bool.false_eq_true, if_false, hs, Res.bind_ok, Utf8.decode_encode]
  cases actionKind vars x with
  | ok k =>
    simp only [Res.bind_ok, scan, hc]
    congr 2
    simp only [List.length_append, List.length_cons, List.length_nil]
    omega
  | err _ => rfl
  | panic => rfl

/-! ## The meaning of an action -/

theorem digitVal_lt_ten {c : Char} {d : Nat} : (digitVal c = some d ∧ d < 10) ↔
    ('0' ≤ c ∧ c ≤ '9') ∧ d = c.toNat - '0'.toNat := by
  unfold digitVal
  split
  · rename_i h
    have : c.toNat ≤ 57 := h.2
    constructor
    · rintro ⟨h1, _⟩; exact ⟨h, (Option.some.inj h1).symm⟩
    · rintro ⟨_, rfl⟩
      refine ⟨rfl, ?_⟩
      have : '0'.toNat = 48 := rfl
      omega
  · rename_i h
    constructor
    · rintro ⟨h1, h2⟩
      split at h1
      · rename_i h3
        have : 97 ≤ c.toNat := h3.1
        have := Option.some.inj h1
        omega
      · cases h1
    · rintro ⟨h1, _⟩; exact absurd h1 h

theorem readDigits_ten {s : Str} {acc v : Nat} : readDigits 10 acc s = some v ↔
    (∀ c ∈ s, '0' ≤ c ∧ c ≤ '9') ∧ s.foldl (fun a c => a * 10 + (c.toNat - '0'.toNat)) acc = v := by
  induction s generalizing acc with
  | nil => simp [readDigits]
  | cons c s ih =>
    rw [readDigits]
    constructor
    · intro h
      split at h
      · rename_i d hd
        split at h
        · rename_i hlt
          obtain ⟨h1, h2⟩ := digitVal_lt_ten.mp ⟨hd, hlt⟩
          obtain ⟨h3, h4⟩ := ih.mp h
          refine ⟨fun x hx => ?_, by rw [List.foldl_cons, ← h2]; exact h4⟩
          rcases List.mem_cons.mp hx with rfl | hx
          · exact h1
          · exact h3 x hx
        · cases h
      · cases h
    · rintro ⟨h1, h2⟩
      obtain ⟨h3, h4⟩ := digitVal_lt_ten.mpr ⟨h1 c (by simp), rfl⟩
      simp only [h3, if_pos h4]
      exact ih.mpr ⟨fun x hx => h1 x (List.mem_cons_of_mem _ hx), h2⟩

theorem readNat_ten {s : Str} {v : Nat} : readNat 10 s = some v ↔
    s ≠ [] ∧ (∀ c ∈ s, '0' ≤ c ∧ c ≤ '9') ∧ s.foldl (fun a c => a * 10 + (c.toNat - '0'.toNat)) 0 = v := by
  unfold readNat
  split
  · rename_i h; simp [h]
  · rename_i h; rw [readDigits_ten]; simp [h]

theorem parseUsize_iff {s : Str} {n : Nat} : parseUsize s = some n ↔ Numeral s n := by
  have key : ∀ ds : Str, (match readNat 10 ds with
      | some n => if n < 18446744073709551616 then some n else none
      | none => none) = some n ↔
      ds ≠ [] ∧ (∀ c ∈ ds, '0' ≤ c ∧ c ≤ '9') ∧ ds.foldl (fun a c => a * 10 + (c.toNat - '0'.toNat)) 0 = n ∧ n < 2 ^ 64 := by
    intro ds
    constructor
    · intro h
      split at h
      · rename_i v hv
        split at h
        · rename_i hlt
          cases h
          obtain ⟨h1, h2, h3⟩ := readNat_ten.mp hv
          exact ⟨h1, h2, h3, hlt⟩
        · cases h
      · cases h
    · rintro ⟨h1, h2, h3, h4⟩
      rw [readNat_ten.mpr ⟨h1, h2, h3⟩]
      simp only
      rw [if_pos h4]
  unfold parseUsize
  constructor
  · intro h
    have h := (key _).mp h
    refine ⟨_, ?_, h⟩
    split
    · exact .inr rfl
    · exact .inl rfl
  · rintro ⟨ds, hs, h⟩
    refine (key _).mpr ?_
    rcases hs with rfl | rfl
    · split
      · exact absurd (h.2.1 '+' (by simp)).1 (by decide)
      · exact h
    · exact h

theorem actionKind_iff {vars : List (Str × Str)} {a : Str} {k : ActionKind} :
    actionKind vars a = .ok k ↔ Means vars a k := by
  unfold actionKind
  constructor
  · intro h
    split at h
    · rename_i e; cases h; subst e; exact .upper
    · split at h
      · rename_i e; cases h; subst e; exact .lower
      · rename_i h1 h2
        split at h
        · rename_i v hv; cases h; exact .var h1 h2 hv
        · rename_i hv
          split at h
          · rename_i n hn; cases h; exact .group h1 h2 hv (parseUsize_iff.mp hn)
          · cases h
  · intro h
    cases h with
    | upper => rfl
    | lower => rfl
    | var h1 h2 h => rw [if_neg h1, if_neg h2, h]
    | group h1 h2 h3 h => rw [if_neg h1, if_neg h2, h3]; simp only [parseUsize_iff.mpr h]

theorem actionKind_cases (vars : List (Str × Str)) (a : Str) :
    (∃ k, actionKind vars a = .ok k) ∨
      actionKind vars a = .err (str% "Invalid action " ++ a ++ str% " in mapping string") := by
  unfold actionKind
  split
  · exact .inl ⟨_, rfl⟩
  · split
    · exact .inl ⟨_, rfl⟩
    · split
      · exact .inl ⟨_, rfl⟩
      · split
        · exact .inl ⟨_, rfl⟩
        · exact .inr rfl

theorem actionKind_err {vars : List (Str × Str)} {a : Str} (h : ∀ k, ¬ Means vars a k) :
    actionKind vars a = .err (str% "Invalid action " ++ a ++ str% " in mapping string") := by
  rcases actionKind_cases vars a with ⟨k, hk⟩ | h'
  · exact absurd (actionKind_iff.mp hk) (h k)
  · exact h'

/-! ## The whole destination -/

/-- A piece: literal, action text, meaning. -/
abbrev Piece := Str × Str × ActionKind

/-- The text of the pieces. -/
def blocks (t : List Piece) : Str := t.flatMap fun p => p.1 ++ '{' :: p.2.1 ++ ['}']

theorem blocks_cons (p : Piece) (t : List Piece) : blocks (p :: t) = (p.1 ++ '{' :: p.2.1 ++ ['}']) ++ blocks t := rfl

theorem scan_pieces (vars : List (Str × Str)) (t : List Piece) (pre post : List Nat) (s : Scan)
    (hl : ∀ p ∈ t, NoPair p.1) (hx : ∀ p ∈ t, '{' ∉ p.2.1 ∧ '}' ∉ p.2.1) (hm : ∀ p ∈ t, Means vars p.2.1 p.2.2)
    (hc : s.chunkStart = pre.length) (ho : s.opened = false) :
    ∃ s', scan vars (pre ++ Utf8.encode (blocks t) ++ post) pre.length (Utf8.encode (blocks t)) s = .ok s' ∧
      s'.chunkStart = (pre ++ Utf8.encode (blocks t)).length ∧ s'.opened = false ∧
      ∃ acts, s'.actions = s.actions ++ acts ∧
        acts.map (fun a => (slice (pre ++ Utf8.encode (blocks t) ++ post) a.start a.stop, a.kind)) =
          t.map fun p => (.ok (Utf8.encode p.1), p.2.2) := by
  induction t generalizing pre s with
  | nil => exact ⟨s, rfl, by simpa [blocks, Utf8.encode] using hc, ho, [], by simp, rfl⟩
  | cons p t ih =>
    have hb := scan_block vars pre (Utf8.encode (blocks t) ++ post) p.1 p.2.1 s (hl p (by simp)) (hx p (by simp)) hc ho
    rw [actionKind_iff.mpr (hm p (by simp)), Res.bind_ok] at hb
    obtain ⟨s', h1, h2, h3, acts, h4, h5⟩ := ih (pre ++ Utf8.encode (p.1 ++ '{' :: p.2.1 ++ ['}']))
      { chunkStart := (pre ++ Utf8.encode (p.1 ++ '{' :: p.2.1 ++ ['}'])).length
        chunkEnd := pre.length + (Utf8.encode p.1).length, opened := false
        actions := s.actions ++
          [{ kind := p.2.2, start := pre.length, stop := pre.length + (Utf8.encode p.1).length }] }
      (fun q hq => hl q (List.mem_cons_of_mem _ hq)) (fun q hq => hx q (List.mem_cons_of_mem _ hq))
      (fun q hq => hm q (List.mem_cons_of_mem _ hq)) rfl rfl
    have e : pre ++ Utf8.encode (p.1 ++ '{' :: p.2.1 ++ ['}']) ++ Utf8.encode (blocks t) ++ post =
        pre ++ Utf8.encode (blocks (p :: t)) ++ post := by
      rw [blocks_cons]; simp only [Utf8.encode_append, List.append_assoc]
    have e' : pre ++ Utf8.encode (p.1 ++ '{' :: p.2.1 ++ ['}']) ++ (Utf8.encode (blocks t) ++ post) =
        pre ++ Utf8.encode (blocks (p :: t)) ++ post := by
      rw [blocks_cons]; simp only [Utf8.encode_append, List.append_assoc]
    rw [e'] at hb
    rw [e] at h1 h5
    refine ⟨s', ?_, ?_, h3, _ :: acts, by rw [h4]; simp only [List.append_assoc]; rfl, ?_⟩
    · have : Utf8.encode (blocks (p :: t)) = Utf8.encode (p.1 ++ '{' :: p.2.1 ++ ['}']) ++ Utf8.encode (blocks t) := by
        rw [blocks_cons, Utf8.encode_append]
      generalize hg : pre ++ Utf8.encode (blocks (p :: t)) ++ post = m at *
      rw [this, scan_append, hb, Res.bind_ok, ← List.length_append]
      exact h1
    · rw [h2, blocks_cons]; simp only [Utf8.encode_append, List.append_assoc]
    · rw [List.map_cons, List.map_cons, h5]
      congr 2
      have := slice_mid pre (Utf8.encode p.1) (Utf8.encode ('{' :: p.2.1 ++ ['}']) ++ (Utf8.encode (blocks t) ++ post))
      rw [← this]
      congr 1
      rw [blocks_cons]
      simp only [Utf8.encode_append, List.append_assoc]

theorem new_ok (env : MapEnv) {re dest tail : Str} {r : Regex} {vars : List (Str × Str)} (files : List Str)
    (t : List Piece) (hr : env.regex re = some r) (hc : Cut dest (t.map fun p => (p.1, p.2.1)) tail)
    (hm : ∀ p ∈ t, Means vars p.2.1 p.2.2) :
    ∃ acts, Generator.new env re dest vars files =
        .ok { re := r, actions := acts, mapping := Utf8.encode dest, files := files } ∧
      acts.map (fun a => (slice (Utf8.encode dest) a.start a.stop, a.kind)) =
        (t.map fun p => (.ok (Utf8.encode p.1), p.2.2)) ++
          if tail = [] then [] else [(.ok (Utf8.encode tail), .none)] := by
  have hd : Utf8.encode dest = Utf8.encode (blocks t) ++ Utf8.encode tail := by
    rw [hc.concat, Utf8.encode_append]
    congr 2
    simp [blocks, List.flatMap_map]
  obtain ⟨s', h1, h2, h3, acts, h4, h5⟩ := scan_pieces vars t [] (Utf8.encode tail)
    { chunkStart := 0, chunkEnd := 0, opened := false, actions := [] }
    (fun p hp => hc.literals _ (List.mem_map_of_mem hp)) (fun p hp => hc.actions _ (List.mem_map_of_mem hp)) hm rfl rfl
  simp only [List.nil_append, List.length_nil, ← hd] at h1 h2 h4 h5
  obtain ⟨ce, op, h6⟩ := scan_literal vars (Utf8.encode dest) tail (Utf8.encode (blocks t)).length s' hc.last
    (by rw [h3]; intro h; cases h)
  unfold Generator.new
  simp only [hr]
  have h7 : scan vars (Utf8.encode dest) 0 (Utf8.encode dest)
      { chunkStart := 0, chunkEnd := 0, opened := false, actions := [] } =
      .ok { s' with chunkEnd := ce, opened := op } := by
    generalize hg : Utf8.encode dest = m at *
    conv => lhs; arg 4; rw [hd]
    rw [scan_append, h1, Res.bind_ok, Nat.zero_add, h6]
  rw [h7]
  simp only [Res.bind_ok]
  refine ⟨_, rfl, ?_⟩
  rw [h4, h2]
  have hlen : (Utf8.encode dest).length = (Utf8.encode (blocks t)).length + (Utf8.encode tail).length := by rw [hd]; simp
  by_cases ht : tail = []
  · subst ht
    rw [if_neg (by rw [hlen]; simp [Utf8.encode]), if_pos rfl, h5]
    simp
  · have : 0 < (Utf8.encode tail).length := by
      cases tail with
      | nil => exact absurd rfl ht
      | cons c s =>
        rw [Utf8.encode_cons, List.length_append]
        have : 0 < (Utf8.encodeChar c).length := by
          unfold Utf8.encodeChar
          simp only
          split
          · simp
          · split
            · simp
            · split <;> simp
        omega
    rw [if_pos (by omega), if_neg ht, List.map_append, h5]
    congr 1
    simp only [List.map_cons, List.map_nil]
    have := slice_mid (Utf8.encode (blocks t)) (Utf8.encode tail) []
    simp only [List.append_nil] at this
    rw [← hd, ← hlen] at this
    rw [this]

theorem new_err (env : MapEnv) {re dest tail l bad : Str} {r : Regex} {vars : List (Str × Str)} (files : List Str)
    (t : List Piece) (rest : List (Str × Str)) (hr : env.regex re = some r)
    (hc : Cut dest ((t.map fun p => (p.1, p.2.1)) ++ (l, bad) :: rest) tail)
    (hm : ∀ p ∈ t, Means vars p.2.1 p.2.2) (hb : ∀ k, ¬ Means vars bad k) :
    Generator.new env re dest vars files =
      .err (str% "Invalid action " ++ bad ++ str% " in mapping string") := by
  obtain ⟨post, hd⟩ : ∃ post, Utf8.encode dest = Utf8.encode (blocks t) ++ (Utf8.encode (l ++ '{' :: bad ++ ['}']) ++ post) := by
    refine ⟨Utf8.encode ((rest.flatMap fun p => p.1 ++ '{' :: p.2 ++ ['}']) ++ tail), ?_⟩
    rw [← Utf8.encode_append, ← Utf8.encode_append]
    congr 1
    rw [hc.concat]
    simp [blocks, List.flatMap_map]
  obtain ⟨s', h1, h2, h3, acts, h4, h5⟩ := scan_pieces vars t [] (Utf8.encode (l ++ '{' :: bad ++ ['}']) ++ post)
    { chunkStart := 0, chunkEnd := 0, opened := false, actions := [] }
    (fun p hp => hc.literals _ (List.mem_append_left _ (List.mem_map_of_mem hp)))
    (fun p hp => hc.actions _ (List.mem_append_left _ (List.mem_map_of_mem hp))) hm rfl rfl
  simp only [List.nil_append, List.length_nil, ← hd] at h1 h2 h4 h5
  have h6 := scan_block vars (Utf8.encode (blocks t)) post l bad s' (hc.literals (l, bad) (by simp))
    (hc.actions (l, bad) (by simp)) h2 h3
  rw [actionKind_err hb, Res.bind_err, List.append_assoc, ← hd] at h6
  unfold Generator.new
  simp only [hr]
  have h7 : scan vars (Utf8.encode dest) 0 (Utf8.encode dest)
      { chunkStart := 0, chunkEnd := 0, opened := false, actions := [] } =
      .err (str% "Invalid action " ++ bad ++ str% " in mapping string") := by
    generalize hg : Utf8.encode dest = m at *
    conv => lhs; arg 4; rw [hd]
    rw [scan_append, h1, Res.bind_ok, scan_append, Nat.zero_add, h6, Res.bind_err]
  rw [h7, Res.bind_err]

/-- Every list of pairs has either a meaning for all its actions or a first action without one. -/
theorem pieces_or_bad (vars : List (Str × Str)) (pairs : List (Str × Str)) :
    (∃ t : List Piece, pairs = t.map (fun p => (p.1, p.2.1)) ∧ ∀ p ∈ t, Means vars p.2.1 p.2.2) ∨
    ∃ (t : List Piece) (l bad : Str) (rest : List (Str × Str)), pairs = t.map (fun p => (p.1, p.2.1)) ++ (l, bad) :: rest ∧
      (∀ p ∈ t, Means vars p.2.1 p.2.2) ∧ ∀ k, ¬ Means vars bad k := by
  induction pairs with
  | nil => exact .inl ⟨[], rfl, by simp⟩
  | cons p ps ih =>
    rcases actionKind_cases vars p.2 with ⟨k, hk⟩ | hk
    · have hk := actionKind_iff.mp hk
      rcases ih with ⟨t, rfl, ht⟩ | ⟨t, l, bad, rest, rfl, ht, hb⟩
      · refine .inl ⟨(p.1, p.2, k) :: t, rfl, ?_⟩
        intro q hq
        rcases List.mem_cons.mp hq with rfl | hq
        · exact hk
        · exact ht q hq
      · refine .inr ⟨(p.1, p.2, k) :: t, l, bad, rest, rfl, ?_, hb⟩
        intro q hq
        rcases List.mem_cons.mp hq with rfl | hq
        · exact hk
        · exact ht q hq
    · refine .inr ⟨[], p.1, p.2, ps, rfl, by simp, fun k h => ?_⟩
      rw [actionKind_iff.mpr h] at hk
      cases hk

/-! ## Expansion -/

/-- `applyActions` with the chunks already cut. -/
def applyPieces (env : MapEnv) (caps : Captures) (file : Str) :
    List (Res (List Nat) × ActionKind) → List Nat → Res (Option (List Nat))
  | [], buf => .ok (some buf)
  | (c, k) :: as, buf => do
    let chunk ← c
    match ← actionText env caps file k with
    | some t => applyPieces env caps file as (buf ++ chunk ++ t)
    | none => .ok none

theorem applyActions_eq (env : MapEnv) (m : List Nat) (caps : Captures) (file : Str) (as : List Action) (buf : List Nat) :
    applyActions env m caps file as buf =
      applyPieces env caps file (as.map fun a => (slice m a.start a.stop, a.kind)) buf := by
  induction as generalizing buf with
  | nil => rfl
  | cons a as ih =>
    simp only [applyActions, List.map_cons, applyPieces]
    cases slice m a.start a.stop with
    | err _ => rfl
    | panic => rfl
    | ok chunk =>
      simp only [Res.bind_ok]
      cases actionText env caps file a.kind with
      | err _ => rfl
      | panic => rfl
      | ok o =>
        cases o with
        | none => rfl
        | some t => simp only [Res.bind_ok, ih]

theorem digit_lower (n : Fin 16) : (hexDigits false)[n.val]? = some (Nat.digitChar n.val) := by
  revert n; decide

theorem digit_upper (n : Fin 16) : (hexDigits true)[n.val]? = some (Nat.digitChar n.val).toUpper := by
  revert n; decide

theorem digit_table (u : Bool) {n : Nat} (h : n < 16) :
    (hexDigits u)[n]? = some (if u then (Nat.digitChar n).toUpper else Nat.digitChar n) := by
  cases u with
  | false => exact digit_lower ⟨n, h⟩
  | true => exact digit_upper ⟨n, h⟩

theorem hexText_of_lt (u : Bool) (bs : List Nat) (h : ∀ b ∈ bs, b < 256) : HexText u bs (hexBytes u bs) := by
  induction bs with
  | nil => rfl
  | cons b bs ih =>
    have hb : b < 256 := h b (by simp)
    refine ⟨_, _, _, rfl, ?_, digit_table u (Nat.mod_lt _ (by decide)), ih fun x hx => h x (List.mem_cons_of_mem _ hx)⟩
    rw [Nat.mod_eq_of_lt (by omega : b / 16 < 16)]
    exact digit_table u (by omega)

theorem hexText_unique {u : Bool} {bs : List Nat} {s : Str} (h : HexText u bs s) : s = hexBytes u bs := by
  induction bs generalizing s with
  | nil => exact h
  | cons b bs ih =>
    obtain ⟨c, d, t, rfl, h1, h2, h3⟩ := h
    have hl : (hexDigits u).length = 16 := by cases u <;> rfl
    have hb : b / 16 < 16 := by
      have := (List.getElem?_eq_some_iff.mp h1).1
      omega
    rw [digit_table u hb] at h1
    rw [digit_table u (Nat.mod_lt _ (by decide))] at h2
    rw [ih h3, ← Option.some.inj h1, ← Option.some.inj h2]
    simp only [hexBytes, List.flatMap_cons, Nat.mod_eq_of_lt hb]
    rfl

theorem actionText_of_value {env : MapEnv} {caps : Captures} {file : Str} {k : ActionKind} {v : Str}
    (h : Value env caps file k v) : actionText env caps file k = .ok (some (Utf8.encode v)) := by
  cases h with
  | group h hw => simp [actionText, h, hw]
  | groupWindows h hw => simp [actionText, h, hw]
  | var => rfl
  | digest hr ht => simp [actionText, getDigest, hr, hexText_unique ht]

theorem value_exists {env : MapEnv} {caps : Captures} {file : Str} {k : ActionKind} (hk : k ≠ .none)
    (hs : ∀ d, ∀ b ∈ env.sha512 d, b < 256) :
    (∃ v, Value env caps file k v) ∨ (∃ n, k = .group n ∧ caps n = none) ∨
      ∃ u, k = .digest u ∧ ∀ d, env.read file ≠ .ok d := by
  cases k with
  | none => exact absurd rfl hk
  | mappingVar v => exact .inl ⟨v, .var⟩
  | group n =>
    cases h : caps n with
    | none => exact .inr (.inl ⟨n, rfl, h⟩)
    | some g =>
      cases hw : env.windows with
      | false => exact .inl ⟨_, .group h hw⟩
      | true => exact .inl ⟨_, .groupWindows h hw⟩
  | digest u =>
    cases h : env.read file with
    | ok d => exact .inl ⟨_, .digest h (hexText_of_lt u _ (hs d))⟩
    | err _ => exact .inr (.inr ⟨u, rfl, by intro d h; cases h⟩)
    | panic => exact .inr (.inr ⟨u, rfl, by intro d h; cases h⟩)

/-- The pieces whose values are known are expanded. -/
theorem applyPieces_values (env : MapEnv) (caps : Captures) (file : Str) (t : List (Str × ActionKind × Str))
    (rest : List (Res (List Nat) × ActionKind)) (buf : Str) (h : ∀ p ∈ t, Value env caps file p.2.1 p.2.2) :
    applyPieces env caps file ((t.map fun p => (.ok (Utf8.encode p.1), p.2.1)) ++ rest) (Utf8.encode buf) =
      applyPieces env caps file rest (Utf8.encode (buf ++ t.flatMap fun p => p.1 ++ p.2.2)) := by
  induction t generalizing buf with
  | nil => simp
  | cons p t ih =>
    simp only [List.map_cons, List.cons_append, applyPieces, Res.bind_ok, actionText_of_value (h p (by simp))]
    rw [← Utf8.encode_append, ← Utf8.encode_append, ih _ fun q hq => h q (List.mem_cons_of_mem _ hq)]
    simp

end Mapping
end DumpSyms
