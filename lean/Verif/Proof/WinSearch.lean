import Verif.Props.WinText
import Verif.Model.WinSearch
import Verif.Spec.WinSearch
/-!
# The last name of a Windows path
-/
namespace DumpSyms
namespace WinHost
open WinPath
open Path (rsplitDot)

theorem startsSep_append {s t : Str} (h : StartsSep s) : StartsSep (s ++ t) := by
  obtain ⟨x, r, rfl, hx⟩ := h
  exact ⟨x, r ++ t, rfl, hx⟩

theorem noSep_last {s : Str} (h : NoSep s) : ∀ x ∈ s, winSep x = false := noSep_isSep h

/-- What comes before the names does not depend on them. -/
theorem anchored_change {a s t : Str} (h : WinAnchored a s) (hd : DriveLike t → DriveLike s) (hs : StartsSep t → StartsSep s) : WinAnchored a t := by
  cases h with
  | plain _ h1 h2 => exact .plain _ (fun h => h1 (hd h)) (fun h => h2 (hs h))
  | rooted x _ h1 h2 => exact .rooted _ _ h1 (fun h => h2 (hs h))
  | drive d _ h1 h2 => exact .drive _ _ h1 (fun h => h2 (hs h))
  | driveRooted d x _ h1 h2 => exact .driveRooted _ _ _ h1 h2
  | device a b c x name _ ha hb hc hx hn => exact .device _ _ _ _ _ _ ha hb hc hx hn
  | share a b c x server name _ ha hb hc hx hn hm h1 h2 h3 h4 => exact .share _ _ _ _ _ _ _ ha hb hc hx hn hm h1 h2 h3 h4

theorem anchored_prefix {a s t : Str} (h : WinAnchored a (s ++ t)) : WinAnchored a s :=
  anchored_change h drive_append startsSep_append

theorem driveLike_cons_sep {e t u : Str} {x : Char} (hx : winSep x = true) (h : DriveLike (e ++ x :: t)) : DriveLike (e ++ x :: u) := by
  obtain ⟨d, r, he, hd⟩ := h
  match e with
  | [] =>
    simp only [List.nil_append, List.cons.injEq] at he
    rw [← he.1, sep_not_alpha hx] at hd
    cases hd
  | [y] =>
    simp only [List.cons_append, List.nil_append, List.cons.injEq] at he
    rw [he.2.1] at hx
    cases hx
  | y :: z :: e =>
    simp only [List.cons_append, List.cons.injEq] at he
    exact ⟨y, e ++ x :: u, by simp [he.2.1], by rw [he.1]; exact hd⟩

theorem startsSep_cons {e t u : Str} {x : Char} (h : StartsSep (e ++ x :: t)) : StartsSep (e ++ x :: u) := by
  obtain ⟨y, r, he, hy⟩ := h
  cases e with
  | nil => injection he with h1; exact ⟨x, u, rfl, by rw [h1]; exact hy⟩
  | cons z e => injection he with h1; exact ⟨z, e ++ x :: u, rfl, by rw [h1]; exact hy⟩

theorem driveLike_sep {e t : Str} {x y : Char} (hy : winSep y = true) (h : DriveLike (e ++ y :: [])) : DriveLike (e ++ x :: t) := by
  obtain ⟨d, r, he, hd⟩ := h
  match e with
  | [] =>
    simp only [List.nil_append, List.cons.injEq] at he
    rw [← he.1, sep_not_alpha hy] at hd
    cases hd
  | [z] =>
    simp only [List.cons_append, List.nil_append, List.cons.injEq] at he
    rw [he.2.1] at hy
    cases hy
  | z :: w :: e =>
    simp only [List.cons_append, List.cons.injEq] at he
    exact ⟨z, e ++ x :: t, by simp [he.2.1], by rw [he.1]; exact hd⟩

theorem startsSep_sep {e t u : Str} {x y : Char} (he : e ≠ []) (h : StartsSep (e ++ y :: u)) : StartsSep (e ++ x :: t) := by
  obtain ⟨z, r, h1, hz⟩ := h
  cases e with
  | nil => exact absurd rfl he
  | cons w e => injection h1 with h1; exact ⟨w, e ++ x :: t, rfl, by rw [h1]; exact hz⟩

theorem winProper_not_starts {n : Str} (h : WinProper n) : ¬ StartsSep n := by
  rintro ⟨x, r, rfl, hx⟩
  have := noSep_last h.2.1 x (by simp)
  rw [this] at hx
  cases hx

/-- A directory part stays one whatever name follows. -/
theorem anchored_name {a d n : Str} (h : WinAnchored a d) (hd : EndsSep d) (hn : WinProper n) : WinAnchored a (d ++ n) := by
  rcases hd with rfl | ⟨t, x, rfl, hx⟩
  · exact anchored_change h (fun h' => absurd h' hn.2.2.2.2) (fun h' => absurd h' (winProper_not_starts hn))
  · rw [List.append_assoc]
    refine anchored_change h ?_ ?_
    · exact driveLike_cons_sep hx
    · exact startsSep_cons

/-- The text ends in a separator. -/
def Rooted (a : Str) : Prop := ∃ t y, a = t ++ [y] ∧ winSep y = true

theorem snoc_inj {s t : Str} {x y : Char} (h : s ++ [x] = t ++ [y]) : s = t ∧ x = y := by
  have := List.append_inj' h rfl
  exact ⟨this.1, by simpa using this.2⟩

/-- The text before the names and the prefix and root. -/
theorem anchored_parts {a s : Str} (h : WinAnchored a s) : ∃ raw root, WinParts (a ++ s) raw root s ∧
    ((root = false ∧ a = raw ∧ ¬ Rooted a) ∨ (root = true ∧ ∃ x, a = raw ++ [x] ∧ winSep x = true)) := by
  cases h with
  | plain _ h1 h2 => exact ⟨[], false, .plain _ h1 h2, .inl ⟨rfl, rfl, by rintro ⟨t, y, e, _⟩; simp at e⟩⟩
  | rooted x _ h1 h2 => exact ⟨[], true, .rooted _ _ h1 h2, .inr ⟨rfl, x, rfl, h1⟩⟩
  | drive d _ h1 h2 =>
    refine ⟨_, false, .drive _ _ h1 h2, .inl ⟨rfl, rfl, ?_⟩⟩
    rintro ⟨t, y, e, hy⟩
    have := snoc_inj (s := [d]) (x := ':') e
    rw [← this.2] at hy
    cases hy
  | driveRooted d x _ h1 h2 => exact ⟨_, true, .driveRooted _ _ _ h1 h2, .inr ⟨rfl, x, rfl, h2⟩⟩
  | device a b c x name _ ha hb hc hx hn =>
    refine ⟨a :: b :: '.' :: c :: name, true, ?_, .inr ⟨rfl, x, rfl, hx⟩⟩
    have := WinParts.device a b c name (x :: s) s ha hb hc hn (.inr ⟨x, hx, rfl⟩)
    simpa using this
  | share a b c x server name _ ha hb hc hx hn hm h1 h2 h3 h4 =>
    refine ⟨a :: b :: (server ++ c :: name), true, ?_, .inr ⟨rfl, x, by simp, hx⟩⟩
    have := WinParts.share a b c server name (x :: s) s ha hb hc hn hm h1 h2 h3 h4 (.inr ⟨x, hx, rfl⟩)
    simpa using this

/-- A text that starts with the piece `.`. -/
def dotText : Str → Bool
  | ['.'] => true
  | '.' :: c :: _ => isSep c
  | _ => false

/-- What is found of such a path. -/
theorem anchored_facts {a s : Str} (h : WinAnchored a s) :
    verbatim (a ++ s) = false ∧ sepOf (a ++ s) = isSep ∧
    (lenBeforeBody (a ++ s) = a.length ∨
      (lenBeforeBody (a ++ s) = a.length + 1 ∧ ¬ Rooted a ∧ ∃ r, s = '.' :: r ∧ (r = [] ∨ StartsSep r))) ∧
    (Rooted a → lenBeforeBody (a ++ s) = a.length) ∧
    (¬ Rooted a → ∀ r, s = '.' :: r → (r = [] ∨ StartsSep r) → lenBeforeBody (a ++ s) = a.length + 1) := by
  obtain ⟨raw, root, hp, hroot⟩ := anchored_parts h
  obtain ⟨q, h1, h2, h3, h4, h5, h6⟩ := parts_facts hp
  have hv : verbatim (a ++ s) = false := by unfold verbatim; rw [h1]; exact h3
  have hsep : sepOf (a ++ s) = isSep := by unfold sepOf; rw [hv]; rfl
  have hpl : prefixLen (a ++ s) = raw.length := by unfold prefixLen; rw [h1]; exact h2
  refine ⟨hv, hsep, ?_⟩
  rcases hroot with ⟨rfl, rfl, hnr⟩ | ⟨rfl, x, rfl, hx⟩
  · have hdrop : (a ++ s).drop a.length = s := List.drop_left
    have hpr : hasPhysicalRoot (a ++ s) = false := by
      rw [← Bool.not_eq_true]
      intro h'
      unfold hasRoot at h4
      rw [h'] at h4
      cases h4
    have hi : includeCurDir (a ++ s) = dotText s := by
      unfold includeCurDir
      rw [h4, hpl, hdrop, hsep]
      rfl
    unfold lenBeforeBody
    rw [hpl, hpr, hi]
    refine ⟨?_, fun h => absurd h hnr, ?_⟩
    · cases hd : dotText s with
      | false => exact .inl rfl
      | true =>
        refine .inr ⟨rfl, hnr, ?_⟩
        unfold dotText at hd
        split at hd
        · exact ⟨[], rfl, .inl rfl⟩
        · rename_i c r
          exact ⟨c :: r, rfl, .inr ⟨c, r, rfl, hd⟩⟩
        · cases hd
    · intro _ r e hr
      have : dotText s = true := by
        subst e
        rcases hr with rfl | ⟨c, r, rfl, hc⟩
        · rfl
        · exact hc
      rw [this]
      rfl
  · have hdrop : (raw ++ [x] ++ s).drop raw.length = x :: s := by simp
    have hpr : hasPhysicalRoot (raw ++ [x] ++ s) = true := by
      unfold hasPhysicalRoot
      rw [hpl, hdrop]
      exact hx
    have hi : includeCurDir (raw ++ [x] ++ s) = false := by unfold includeCurDir; rw [h4]; rfl
    have hlen : lenBeforeBody (raw ++ [x] ++ s) = (raw ++ [x]).length := by
      unfold lenBeforeBody
      rw [hpl, hpr, hi]
      simp
    exact ⟨.inl hlen, fun _ => hlen, fun h => absurd ⟨raw, x, rfl, hx⟩ h⟩

theorem lastPiece_sep {s n : Str} {x : Char} (hx : winSep x = true) (hn : NoSep n) : lastPiece isSep (s ++ x :: n) = n := by
  unfold lastPiece
  rw [List.reverse_append, List.reverse_cons, List.append_assoc, List.takeWhile_append]
  have : n.reverse.takeWhile (fun x => !isSep x) = n.reverse :=
    Path.takeWhile_all _ _ (fun x hx => by simp [noSep_isSep hn x (List.mem_reverse.mp hx)])
  have hx' : isSep x = true := hx
  rw [this]
  simp [hx']

theorem cutLast_sep {s n : Str} {x : Char} (hx : winSep x = true) (hn : NoSep n) : cutLast isSep (s ++ x :: n) = s := by
  unfold cutLast
  rw [List.reverse_append, List.reverse_cons, List.append_assoc, List.dropWhile_append]
  have : n.reverse.dropWhile (fun x => !isSep x) = [] :=
    Path.dropWhile_all _ _ (fun x hx => by simp [noSep_isSep hn x (List.mem_reverse.mp hx)])
  have hx' : isSep x = true := hx
  rw [this]
  simp [hx']

theorem lastPiece_ends {d n : Str} (hd : EndsSep d) (hn : NoSep n) : lastPiece isSep (d ++ n) = n := by
  rcases hd with rfl | ⟨t, x, rfl, hx⟩
  · exact lastPiece_all hn
  · rw [List.append_assoc]; exact lastPiece_sep hx hn

theorem trimRight_name {d n : Str} (hd : EndsSep d) (hn : WinProper n) (k : Nat) : trimRight isSep false k (d ++ n) = d ++ n := by
  cases k with
  | zero => rfl
  | succ k =>
    rw [trimRight, if_neg]
    rintro ⟨_, h⟩
    rw [lastPiece_ends hd hn.2.1, single_proper hn] at h
    cases h

/-- The last piece of the text of the names. -/
theorem body_last {d n : Str} (hd : EndsSep d) (hn : WinProper n) : (body isSep false (d ++ n)).getLast? = some (.normal n) := by
  have h1 : splitOn isSep n = [n] := splitOn_no_sep _ _ (noSep_isSep hn.2.1)
  unfold body
  rcases hd with rfl | ⟨t, x, rfl, hx⟩
  · rw [List.nil_append, h1]
    simp [single_proper hn]
  · rw [List.append_assoc, List.singleton_append, splitOn_append_sep isSep _ _ _ hx, h1, List.filterMap_append]
    simp [single_proper hn]

/-- The text after `len_before_body` ends with the name as well. -/
theorem anchored_body {a d n : Str} (h : WinAnchored a d) (hd : EndsSep d) (hn : WinProper n) :
    verbatim (a ++ (d ++ n)) = false ∧ sepOf (a ++ (d ++ n)) = isSep ∧
    ∃ d1 d2, d = d1 ++ d2 ∧ EndsSep d2 ∧ (a ++ (d ++ n)).take (lenBeforeBody (a ++ (d ++ n))) = a ++ d1 ∧
      (a ++ (d ++ n)).drop (lenBeforeBody (a ++ (d ++ n))) = d2 ++ n ∧ (Rooted a → d1 = []) ∧
      (¬ Rooted a → ∀ r, d = '.' :: r → StartsSep r → d1 = ['.']) ∧ (d1 = [] ∨ d1 = ['.'] ∧ StartsSep d2) := by
  obtain ⟨hv, hs, hl, hl2, hl3⟩ := anchored_facts (anchored_name h hd hn)
  refine ⟨hv, hs, ?_⟩
  rcases hl with hl | ⟨hl, hnr, r, e, hr⟩
  · refine ⟨[], d, rfl, hd, ?_, ?_, fun _ => rfl, ?_, .inl rfl⟩
    · rw [hl, List.take_left, List.append_nil]
    · rw [hl, List.drop_left]
    · intro hnr r hr hr'
      have := hl3 hnr (r ++ n) (by rw [hr]; rfl) (.inr (startsSep_append hr'))
      omega
  · have hd0 : d ≠ [] := by
      rintro rfl
      rw [List.nil_append] at e
      rcases hr with rfl | ⟨x, r, rfl, hx⟩
      · exact hn.2.2.1 e
      · have := noSep_last hn.2.1 x (by rw [e]; simp)
        rw [this] at hx
        cases hx
    cases d with
    | nil => exact absurd rfl hd0
    | cons c d =>
      injection e with e1 e2
      subst e1
      have hsd : StartsSep d := by
        rcases hr with hr | ⟨x, r, hr, hx⟩
        · rw [hr] at e2; exact absurd (List.append_eq_nil_iff.mp e2).2 hn.1
        · cases d with
          | nil => exact absurd ⟨x, r, by rw [← hr]; exact e2, hx⟩ (winProper_not_starts hn)
          | cons y d => rw [hr] at e2; injection e2 with h1; exact ⟨y, d, rfl, by rw [h1]; exact hx⟩
      refine ⟨['.'], d, rfl, ?_, ?_, ?_, fun h => absurd h hnr, fun _ _ _ _ => rfl, .inr ⟨rfl, hsd⟩⟩
      · rcases hd with h0 | ⟨t, x, h0, hx⟩
        · cases h0
        · cases t with
          | nil => injection h0 with h0; rw [← h0] at hx; cases hx
          | cons y t => injection h0 with _ h0; exact .inr ⟨t, x, h0, hx⟩
      · rw [hl, show a.length + 1 = (a ++ ['.']).length by simp, show a ++ ('.' :: d ++ n) = (a ++ ['.']) ++ (d ++ n) by simp, List.take_left]
      · rw [hl, show a.length + 1 = (a ++ ['.']).length by simp, show a ++ ('.' :: d ++ n) = (a ++ ['.']) ++ (d ++ n) by simp, List.drop_left]

theorem fileName_dir {pre n : Str} (hp : WinDirPart pre) (hn : WinProper n) : WinPath.fileName (pre ++ n) = some n := by
  obtain ⟨a, d, rfl, h, hd⟩ := hp
  obtain ⟨hv, hs, d1, d2, _, hd2, _, h2, _⟩ := anchored_body h hd hn
  unfold WinPath.fileName WinPath.components
  rw [List.append_assoc a, hv, hs, h2, List.getLast?_append, body_last hd2 hn]
  rfl

theorem trimmed_dir {pre n : Str} (hp : WinDirPart pre) (hn : WinProper n) :
    (pre ++ n).take (lenBeforeBody (pre ++ n)) ++ trimmedBody (pre ++ n) = pre ++ n := by
  obtain ⟨a, d, rfl, h, hd⟩ := hp
  obtain ⟨hv, hs, d1, d2, _, hd2, h1, h2, _⟩ := anchored_body h hd hn
  unfold trimmedBody
  rw [List.append_assoc a, hv, hs, h2]
  simp only [trimRight_name hd2 hn]
  rw [← h2, List.take_append_drop]

/-- A new extension. -/
theorem setExtension_dir {pre name stem x : Str} (h : BaseName name stem) (hp : WinDirPart pre) (hn : WinProper name) (hx : x ≠ []) :
    WinPath.setExtension (pre ++ name) x = pre ++ (stem ++ '.' :: x) := by
  have hf := fileName_dir hp hn
  have hstem : WinPath.fileStem (pre ++ name) = some stem := by
    unfold WinPath.fileStem
    rw [hf]
    cases h with
    | ext _ e h1 h2 => simp only [rsplitDot_append stem e h2, if_neg h1]
    | bare _ k =>
      rcases split_last_dot name with hd | ⟨b, c, rfl, hc⟩
      · simp only [rsplitDot_none _ hd]
      · obtain rfl := k b c rfl hc
        simp only [rsplitDot_append _ c hc, if_true]
  unfold WinPath.setExtension
  simp only [hf, hstem, trimmed_dir hp hn, if_neg hx]
  simp

/-! ### The directory of a path -/

theorem cutLast_lt {s : Str} (h : s ≠ []) : (cutLast isSep s).length < s.length := by
  unfold cutLast
  rw [List.length_reverse, List.length_drop]
  have h1 : (s.reverse.dropWhile fun c => !isSep c).length ≤ s.length := by
    have := (List.dropWhile_sublist (fun c => !isSep c) (l := s.reverse)).length_le
    rwa [List.length_reverse] at this
  have := List.length_pos_iff.mpr h
  omega

theorem trimRight_fuel (v : Bool) : ∀ (n : Nat) (s : Str), s.length ≤ n → trimRight isSep v n s = trimRight isSep v s.length s := by
  intro n
  induction n using Nat.strongRecOn with
  | ind n ih =>
    intro s hs
    cases n with
    | zero => have : s = [] := List.length_eq_zero_iff.mp (by omega); subst this; rfl
    | succ n =>
      by_cases h0 : s = []
      · subst h0; simp [trimRight]
      · obtain ⟨m, hm⟩ : ∃ m, s.length = m + 1 := ⟨s.length - 1, by have := List.length_pos_iff.mpr h0; omega⟩
        have hlt := cutLast_lt h0
        rw [hm, trimRight, trimRight]
        split
        · rw [ih n (by omega) _ (by omega), ih m (by omega) _ (by omega)]
        · rfl

/-- The text without what follows its last component. -/
def trimmed (s : Str) : Str := trimRight isSep false s.length s

theorem trimmed_sep (s : Str) {x : Char} (hx : winSep x = true) : trimmed (s ++ [x]) = trimmed s := by
  unfold trimmed
  rw [List.length_append, List.length_singleton, trimRight, if_pos, cutLast_sep (n := []) hx ⟨by simp, by simp⟩]
  exact ⟨by simp, by rw [lastPiece_sep (n := []) hx ⟨by simp, by simp⟩]; rfl⟩

theorem trimmed_dot (s : Str) {x : Char} (hx : winSep x = true) : trimmed (s ++ [x, '.']) = trimmed s := by
  unfold trimmed
  have hd : NoSep ['.'] := ⟨by decide, by decide⟩
  rw [show (s ++ [x, '.']).length = s.length + 1 + 1 by simp, trimRight, if_pos, cutLast_sep (n := ['.']) hx hd, trimRight_fuel]
  · omega
  · exact ⟨by simp, by rw [lastPiece_sep (n := ['.']) hx hd]; rfl⟩

theorem trimmed_skip {k : Str} (hk : WinSkip k) : ∀ (s : Str) {x : Char}, winSep x = true → trimmed ((s ++ x :: k).dropLast) = trimmed s := by
  induction hk with
  | nil => intro s x hx; simp
  | sep y k hy _ ih =>
    intro s x hx
    have := ih (s ++ [x]) hy
    rw [trimmed_sep s hx] at this
    simpa using this
  | dot y k hy _ ih =>
    intro s x hx
    have := ih (s ++ [x, '.']) hy
    rw [trimmed_dot s hx] at this
    simpa using this

theorem skip_ends {k : Str} (hk : WinSkip k) : EndsSep k := by
  induction hk with
  | nil => exact .inl rfl
  | sep y k hy _ ih =>
    rcases ih with rfl | ⟨t, z, rfl, hz⟩
    · exact .inr ⟨[], y, rfl, hy⟩
    · exact .inr ⟨y :: t, z, rfl, hz⟩
  | dot y k hy _ ih =>
    rcases ih with rfl | ⟨t, z, rfl, hz⟩
    · exact .inr ⟨['.'], y, rfl, hy⟩
    · exact .inr ⟨'.' :: y :: t, z, rfl, hz⟩

theorem skip_cons_ends {k : Str} (hk : WinSkip k) (s : Str) {x : Char} (hx : winSep x = true) : EndsSep (s ++ x :: k) := by
  rcases skip_ends hk with rfl | ⟨t, z, rfl, hz⟩
  · exact .inr ⟨s, x, rfl, hx⟩
  · exact .inr ⟨s ++ x :: t, z, by simp, hz⟩

theorem cutLast_ends {d n : Str} (hd : EndsSep d) (hn : NoSep n) : cutLast isSep (d ++ n) = d.dropLast := by
  rcases hd with rfl | ⟨t, x, rfl, hx⟩
  · exact cutLast_all hn
  · rw [List.append_assoc, List.singleton_append, cutLast_sep hx hn, List.dropLast_concat]

/-- Leaving the last name. -/
theorem pop_dir {a d n : Str} (h : WinAnchored a d) (hd : EndsSep d) (hn : WinProper n) :
    ∃ d1 d2, d = d1 ++ d2 ∧ EndsSep d2 ∧ (Rooted a → d1 = []) ∧ (¬ Rooted a → ∀ r, d = '.' :: r → StartsSep r → d1 = ['.']) ∧ (d1 = [] ∨ d1 = ['.'] ∧ StartsSep d2) ∧
      WinPath.pop (a ++ (d ++ n)) = a ++ (d1 ++ trimmed d2.dropLast) := by
  obtain ⟨hv, hs, d1, d2, e, hd2, h1, h2, h3, h4, h5⟩ := anchored_body h hd hn
  refine ⟨d1, d2, e, hd2, h3, h4, h5, ?_⟩
  unfold WinPath.pop parent trimmedBody
  rw [hv, hs, h2, h1]
  simp only [trimRight_name hd2 hn, cutLast_ends hd2 hn.2.1]
  rw [if_pos (by simp [hn.1])]
  simp [trimmed]

/-- A text that ends neither in a separator nor in the piece `.` stays. -/
theorem trimmed_end {s : Str} (h1 : ¬ EndsSep s) (h2 : s ≠ ['.']) (h3 : ¬ ∃ t y, s = t ++ [y, '.'] ∧ winSep y = true) : trimmed s = s := by
  have hs0 : s ≠ [] := fun h => h1 (.inl h)
  unfold trimmed
  generalize s.length = n
  cases n with
  | zero => rfl
  | succ n =>
    rw [trimRight, if_neg]
    rintro ⟨_, h⟩
    -- the last piece
    have hsplit : (lastPiece isSep s = s) ∨ ∃ t y, s = t ++ y :: lastPiece isSep s ∧ winSep y = true := by
      unfold lastPiece
      have e := List.takeWhile_append_dropWhile (p := fun c => !isSep c) (l := s.reverse)
      cases hd : s.reverse.dropWhile (fun c => !isSep c) with
      | nil => left; rw [hd, List.append_nil] at e; rw [e, List.reverse_reverse]
      | cons y t =>
        right
        refine ⟨t.reverse, y, ?_, ?_⟩
        · rw [hd] at e
          have := congrArg List.reverse e
          simpa using this.symm
        · have := List.head?_dropWhile_not (fun c => !isSep c) s.reverse
          rw [hd] at this
          simpa [winSep_eq] using this
    have hp : lastPiece isSep s = ['.'] ∨ lastPiece isSep s = [] := by
      unfold single at h
      split at h
      · rename_i h'; exact .inl h'
      · split at h
        · cases h
        · split at h
          · rename_i h'; exact .inr h'
          · cases h
    rcases hsplit with hw | ⟨t, y, hw, hy⟩
    · rcases hp with hp | hp
      · rw [hw] at hp; exact h2 hp
      · rw [hw] at hp; exact hs0 hp
    · rcases hp with hp | hp
      · rw [hp] at hw; exact h3 ⟨t, y, hw, hy⟩
      · rw [hp] at hw; exact h1 (.inr ⟨t, y, hw, hy⟩)

theorem anchor_noSepAfter {a s : Str} (h : WinAnchored a s) : NoSepAfter a := by
  have sep : ∀ {x : Char}, winSep x = true → x = '/' ∨ x = '\\' := by
    intro x hx
    simpa [winSep] using hx
  cases h with
  | plain => exact .inl rfl
  | rooted x _ h1 h2 => exact .inr (.inl ⟨[], x, rfl, sep h1⟩)
  | drive d _ h1 h2 => exact .inr (.inr ⟨d, rfl, h1⟩)
  | driveRooted d x _ h1 h2 => exact .inr (.inl ⟨[d, ':'], x, rfl, sep h2⟩)
  | device a b c x name _ ha hb hc hx hn => exact .inr (.inl ⟨a :: b :: '.' :: c :: name, x, rfl, sep hx⟩)
  | share a b c x server name _ ha hb hc hx hn hm h1 h2 h3 h4 => exact .inr (.inl ⟨a :: b :: (server ++ c :: name), x, by simp, sep hx⟩)

theorem anchored_not_after {a e : Str} (h : WinAnchored a e) (he : ¬ EndsSep e) : ¬ NoSepAfter (a ++ e) := by
  have he0 : e ≠ [] := fun h => he (.inl h)
  rintro (h0 | ⟨s, x, h0, hx⟩ | ⟨x, h0, hx⟩)
  · rw [List.append_eq_nil_iff] at h0; exact he0 h0.2
  · obtain ⟨t, y, rfl⟩ := eq_snoc he0
    rw [← List.append_assoc] at h0
    obtain ⟨_, rfl⟩ := snoc_inj h0
    exact he (.inr ⟨t, y, rfl, by rcases hx with rfl | rfl <;> rfl⟩)
  · cases h with
    | plain _ hd hs => exact hd ⟨x, [], h0, hx⟩
    | rooted y _ hy hs =>
      injection h0 with h1
      rw [← h1, sep_not_alpha hy] at hx
      cases hx
    | drive d _ h1 h2 => simp only [List.cons_append, List.nil_append, List.cons.injEq, true_and] at h0; exact he0 h0.2
    | driveRooted d y _ h1 h2 => simp at h0
    | device a b c x name _ ha hb hc hx hn => simp at h0
    | share a b c x server name _ ha hb hc hx hn hm h1 h2 h3 h4 => simp at h0

theorem anchored_not_verbatim {a s : Str} (h : WinAnchored a s) : verbatim (a ++ s) = false := (anchored_facts h).1

/-- Leaving the last name, below a name. -/
theorem pop_below {path a e k n : Str} {x : Char} (e1 : path = a ++ (e ++ x :: (k ++ n))) (ha : WinAnchored a (e ++ x :: (k ++ n))) (he0 : e ≠ [])
    (he1 : ¬ EndsSep e) (he2 : ¬ ∃ t y, e = t ++ [y, '.'] ∧ winSep y = true) (he3 : e = ['.'] → ¬ ∃ t y, a = t ++ [y] ∧ winSep y = true)
    (hx : winSep x = true) (hk : WinSkip k) (hm : WinProper n) : WinPath.pop path = a ++ e := by
  have hd : EndsSep (e ++ x :: k) := skip_cons_ends hk e hx
  have hax : WinAnchored a (e ++ x :: k) := by
    rw [show e ++ x :: (k ++ n) = (e ++ x :: k) ++ n by simp] at ha
    exact anchored_prefix ha
  obtain ⟨d1, d2, e2, hd2, h3, h4, h5, hpop⟩ := pop_dir hax hd hm
  rw [show a ++ (e ++ x :: k ++ n) = path by rw [e1]; simp] at hpop
  rw [hpop]
  congr 1
  rcases h5 with rfl | ⟨rfl, h5⟩
  · rw [List.nil_append] at e2 ⊢
    subst e2
    rw [trimmed_skip hk e hx]
    by_cases hdot : e = ['.']
    · exfalso
      subst hdot
      have := h4 (he3 rfl) (x :: k) rfl ⟨x, k, rfl, hx⟩
      cases this
    · exact trimmed_end he1 hdot he2
  · cases e with
    | nil => exact absurd rfl he0
    | cons c e =>
      injection e2 with hc e2
      subst hc
      subst e2
      rw [show e.append (x :: k) = e ++ x :: k from rfl, trimmed_skip hk e hx, List.singleton_append]
      congr 1
      by_cases h0 : e = []
      · subst h0; rfl
      · have hne : ¬ EndsSep e := by
          rintro (h | ⟨t, y, rfl, hy⟩)
          · exact h0 h
          · exact he1 (.inr ⟨'.' :: t, y, rfl, hy⟩)
        refine trimmed_end hne ?_ ?_
        · rintro rfl
          obtain ⟨y, r, h6, h7⟩ := h5
          injection h6 with h6
          rw [← h6] at h7
          cases h7
        · rintro ⟨t, y, rfl, hy⟩
          exact he2 ⟨'.' :: t, y, rfl, hy⟩

/-- Another name in the directory of a path. -/
theorem setFileName_dirOf {path dir name : Str} (h : WinDirOf path dir) (hn : WinProper name) :
    setFileName path name = dir ++ name ∧ WinDirPart dir := by
  have hpush := fun p : Str => push_names (dir := p) (cs := [name]) (by simp) (by simpa using hn)
  have hj : joinBack [name] = name := rfl
  unfold setFileName
  cases h with
  | top _ k n e ha hk hr hm =>
    have hd := skip_ends hk
    have ha' := anchored_prefix ha
    have ha0 : WinAnchored dir [] := anchored_change ha (by rintro ⟨_, _, h, _⟩; cases h) (by rintro ⟨_, _, h, _⟩; cases h)
    obtain ⟨d1, d2, e2, hd2, h3, h4, h5, hpop⟩ := pop_dir ha' hd hm
    have hf := fileName_dir ⟨dir, k, rfl, ha', hd⟩ hm
    rw [List.append_assoc, ← e] at hf
    rw [hf]
    simp only
    rw [← e] at hpop
    have hpa : WinPath.pop path = dir := by
      rw [hpop]
      rcases hr with rfl | hr
      · obtain ⟨rfl, rfl⟩ := List.nil_eq_append_iff.mp e2
        simp [trimmed, trimRight]
      · obtain rfl := h3 hr
        rw [List.nil_append] at e2 ⊢
        subst e2
        have : trimmed k.dropLast = [] := by
          cases hk with
          | nil => rfl
          | sep x k hx hk =>
            have := trimmed_skip hk [] hx
            simpa [trimmed, trimRight] using this
          | dot x k hx hk =>
            have := trimmed_skip hk ['.'] hx
            rw [List.singleton_append] at this
            rw [this]
            decide
        rw [this, List.append_nil]
    rw [hpa]
    have hv := anchored_not_verbatim ha0
    rw [List.append_nil] at hv
    exact ⟨by have := ((hpush dir).1 hv).1 (anchor_noSepAfter ha0); rwa [hj] at this, dir, [], by simp, ha0, .inl rfl⟩
  | below a e k n x e1 ha he0 he1 he2 he3 hx hk hm =>
    have hd : EndsSep (e ++ x :: k) := skip_cons_ends hk e hx
    have hax : WinAnchored a (e ++ x :: k) := by
      rw [show e ++ x :: (k ++ n) = (e ++ x :: k) ++ n by simp] at ha
      exact anchored_prefix ha
    have hae : WinAnchored a e := anchored_prefix ha
    have hf := fileName_dir ⟨a, _, rfl, hax, hd⟩ hm
    rw [show a ++ (e ++ x :: k) ++ n = path by rw [e1]; simp] at hf
    rw [hf]
    simp only
    have hpa : WinPath.pop path = a ++ e := pop_below e1 ha he0 he1 he2 he3 hx hk hm
    rw [hpa]
    have := ((hpush (a ++ e)).1 (anchored_not_verbatim hae)).2 (anchored_not_after hae he1)
    rw [hj] at this
    refine ⟨by rw [this]; simp, a, e ++ ['\\'], rfl, ?_, .inr ⟨e, '\\', rfl, rfl⟩⟩
    exact anchored_change ha (fun h => driveLike_sep (by decide) h) (fun h => startsSep_sep he0 h)
  | self h1 hv h2 h3 =>
    rw [h1]
    simp only
    exact ⟨by have := ((hpush path).1 hv).1 h2; rwa [hj] at this, h3⟩
  | inside h1 hv h2 h3 =>
    rw [h1]
    simp only
    have := ((hpush path).1 hv).2 h2
    rw [hj] at this
    exact ⟨by rw [this]; simp, h3⟩

end WinHost
end DumpSyms
