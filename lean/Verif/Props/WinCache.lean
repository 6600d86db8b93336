import Verif.Model.WinCache
import Verif.Spec.WinCache
import Verif.Props.WinSearch
import Verif.Props.Search
import Verif.Props.Inputs
/-!
# C110: where a searched file comes from on Windows; C111: which PDB is taken for a PE there
-/
namespace DumpSyms
namespace WinHost
open WinPath
open WinUtils (baseName_exists isFile_iff diskOf noCab parseEx)
open Cache (Net World Server Job Asked Refused afterHeads afterGet jobUrl dropLastByte checkData jobNew_iff dropLastByte_iff bind_ok_iff refused_iff)

/-! ### A name in a directory -/

theorem single_name {n : Str} (h : WinProper n) : ¬ EndsSep n := by
  rintro (rfl | ⟨t, x, rfl, hx⟩)
  · exact h.1 rfl
  · have := noSep_last h.2.1 x (by simp)
    rw [this] at hx
    cases hx

theorem ends_name {d n : Str} (h : WinProper n) : ¬ EndsSep (d ++ n) := by
  obtain ⟨t, x, rfl⟩ := eq_snoc h.1
  rintro (e | ⟨u, y, e, hy⟩)
  · simp at e
  · rw [← List.append_assoc] at e
    obtain ⟨-, rfl⟩ := snoc_inj e
    have := noSep_last h.2.1 x (by simp)
    rw [this] at hy
    cases hy

theorem noSepAfter_ends {s : Str} (h : NoSepAfter s) (hd : ¬ DriveLike s) : EndsSep s := by
  rcases h with h | ⟨t, x, rfl, hx⟩ | ⟨x, rfl, hx⟩
  · exact .inl h
  · exact .inr ⟨t, x, rfl, by rcases hx with rfl | rfl <;> rfl⟩
  · exact absurd ⟨x, [], rfl, hx⟩ hd

/-- The text between a directory and a name in it. -/
theorem inside_sep {c n p : Str} (h : Inside c n p) : ∃ z, p = c ++ (z ++ n) ∧ (z = [] ∧ NoSepAfter c ∨ z = ['\\'] ∧ ¬ NoSepAfter c) := by
  rcases h with ⟨h1, rfl⟩ | ⟨h1, rfl⟩
  · exact ⟨[], rfl, .inl ⟨rfl, h1⟩⟩
  · exact ⟨['\\'], rfl, .inr ⟨rfl, h1⟩⟩

/-- What comes before a name in a directory ends in a separator or is nothing, apart from what comes before all names. -/
theorem tail_sep {b s z : Str} (hz : z = [] ∧ NoSepAfter (b ++ s) ∨ z = ['\\'] ∧ ¬ NoSepAfter (b ++ s))
    (hb : s ≠ [] → ¬ ∃ y, b ++ s = [y, ':'] ∧ y.isAlpha = true) : EndsSep (s ++ z) := by
  rcases hz with ⟨rfl, hz⟩ | ⟨rfl, hz⟩
  · rw [List.append_nil]
    by_cases hs : s = []
    · exact .inl hs
    obtain ⟨t, x, rfl⟩ := eq_snoc hs
    rcases hz with h | ⟨u, y, h, hy⟩ | ⟨y, h, hy⟩
    · simp at h
    · rw [← List.append_assoc] at h
      obtain ⟨-, rfl⟩ := snoc_inj h
      exact .inr ⟨t, x, rfl, by rcases hy with rfl | rfl <;> rfl⟩
    · exact absurd ⟨y, h, hy⟩ (hb hs)
  · exact .inr ⟨s, '\\', rfl, rfl⟩

theorem driveLike_two {s t : Str} (hs : s ≠ []) (h : DriveLike (s ++ '\\' :: t)) : DriveLike s := by
  obtain ⟨d, r, e, hd⟩ := h
  match s with
  | [y] => simp only [List.cons_append, List.nil_append, List.cons.injEq] at e; exact absurd e.2.1 (by decide)
  | y :: z :: s =>
    simp only [List.cons_append, List.cons.injEq] at e
    exact ⟨y, s, by rw [e.2.1], by rw [e.1]; exact hd⟩

theorem startsSep_two {s t : Str} (hs : s ≠ []) (h : StartsSep (s ++ t)) : StartsSep s := by
  obtain ⟨x, r, e, hx⟩ := h
  cases s with
  | nil => exact absurd rfl hs
  | cons y s => injection e with e; exact ⟨y, s, rfl, by rw [e]; exact hx⟩

/-- `s`, a separator if needed, and a name: no drive and no separator at the start. -/
theorem tail_plain {s z n : Str} (hn : WinProper n) (hz : z = [] ∨ z = ['\\']) (he : EndsSep (s ++ z)) (hs0 : s = [] → z = []) :
    (¬ DriveLike s → ¬ DriveLike (s ++ z ++ n)) ∧ (¬ StartsSep s → ¬ StartsSep (s ++ z ++ n)) := by
  by_cases hs : s = []
  · obtain rfl := hs0 hs
    subst hs
    exact ⟨fun _ => hn.2.2.2.2, fun _ => winProper_not_starts hn⟩
  · refine ⟨fun h h' => h ?_, fun h h' => h ?_⟩
    · rcases hz with rfl | rfl
      · rw [List.append_nil] at h' he
        rcases he with he | ⟨t, x, rfl, hx⟩
        · exact absurd he hs
        · rw [List.append_assoc] at h'
          exact driveLike_cons_sep hx h'
      · rw [List.append_assoc] at h'
        exact driveLike_two hs h'
    · rw [List.append_assoc] at h'
      exact startsSep_two hs h'

/-- A name in a directory: what comes before it stays a directory part, except when the directory is `\\.\`. -/
theorem parts_inside {c n p raw s : Str} {root : Bool} (h : WinParts c raw root s) (hn : WinProper n) (hp : Inside c n p) :
    (∃ a d, p = a ++ (d ++ n) ∧ WinAnchored a (d ++ n) ∧ EndsSep d) ∨
    (∃ x y z, winSep x = true ∧ winSep y = true ∧ winSep z = true ∧ c = [x, y, '.', z] ∧ p = x :: y :: '.' :: z :: n) := by
  obtain ⟨z, rfl, hz⟩ := inside_sep hp
  have hz' : z = [] ∨ z = ['\\'] := by rcases hz with h | h; exact .inl h.1; exact .inr h.1
  have sepc : ∀ {x : Char}, winSep x = true → x = '/' ∨ x = '\\' := by intro x hx; simpa [winSep] using hx
  have notsep : ∀ {t : Str}, NoSep t → t ≠ [] → ∀ u y, t = u ++ [y] → ¬ (y = '/' ∨ y = '\\') := by
    rintro t ht _ u y rfl (rfl | rfl)
    · exact ht.1 (by simp)
    · exact ht.2 (by simp)
  have hz0 : ∀ {b : Str}, NoSepAfter b → c = b → z = [] := by
    rintro b hb rfl
    rcases hz with h | h
    · exact h.1
    · exact absurd hb h.2
  cases h with
  | plain _ hd hs =>
    have he : EndsSep (c ++ z) := tail_sep (b := []) hz (fun _ ⟨y, e, hy⟩ => hd ⟨y, [], e, hy⟩)
    obtain ⟨k1, k2⟩ := tail_plain hn hz' he (hz0 (.inl rfl))
    exact .inl ⟨[], c ++ z, by simp, .plain _ (k1 hd) (k2 hs), he⟩
  | rooted x _ hx hs =>
    have he : EndsSep (s ++ z) := tail_sep (b := [x]) hz (by
      rintro _ ⟨y, e, hy⟩
      injection e with e
      rw [← e, sep_not_alpha hx] at hy
      cases hy)
    obtain ⟨_, k2⟩ := tail_plain hn hz' he (fun h => hz0 (.inr (.inl ⟨[], x, rfl, sepc hx⟩)) (by rw [h]; rfl))
    exact .inl ⟨[x], s ++ z, by simp, .rooted _ _ hx (k2 hs), he⟩
  | drive d _ hd hs =>
    have he : EndsSep (s ++ z) := tail_sep (b := [d, ':']) hz (by
      rintro h0 ⟨y, e, hy⟩
      injection e with _ e
      injection e with _ e
      exact h0 e)
    obtain ⟨_, k2⟩ := tail_plain hn hz' he (fun h => hz0 (.inr (.inr ⟨d, rfl, hd⟩)) (by rw [h]))
    exact .inl ⟨[d, ':'], s ++ z, by simp, .drive _ _ hd (k2 hs), he⟩
  | driveRooted d x _ hd hx =>
    have he : EndsSep (s ++ z) := tail_sep (b := [d, ':', x]) hz (by
      rintro h0 ⟨y, e, hy⟩
      injection e with _ e
      injection e with _ e
      cases e)
    exact .inl ⟨[d, ':', x], s ++ z, by simp, .driveRooted _ _ _ hd hx, he⟩
  | device a b c' name t _ ha hb hc hm ht =>
    have key : ∀ x, winSep x = true → ∀ s : Str, a :: b :: '.' :: c' :: (name ++ t) = a :: b :: '.' :: c' :: (name ++ [x]) ++ s →
        ∃ a' d, a :: b :: '.' :: c' :: (name ++ t) ++ (z ++ n) = a' ++ (d ++ n) ∧ WinAnchored a' (d ++ n) ∧ EndsSep d := by
      intro x hx s e
      refine ⟨a :: b :: '.' :: c' :: (name ++ [x]), s ++ z, by rw [e]; simp, .device _ _ _ _ _ _ ha hb hc hx hm, ?_⟩
      rw [e] at hz
      refine tail_sep hz ?_
      rintro h0 ⟨y, e, hy⟩
      injection e with _ e
      injection e with _ e
      cases e
    rcases ht with ⟨rfl, rfl⟩ | ⟨x, hx, rfl⟩
    · by_cases h0 : name = []
      · subst h0
        obtain rfl := hz0 (.inr (.inl ⟨[a, b, '.'], c', rfl, sepc hc⟩)) rfl
        exact .inr ⟨a, b, c', ha, hb, hc, by simp, by simp⟩
      · have hno : ¬ NoSepAfter (a :: b :: '.' :: c' :: (name ++ [])) := by
          rw [List.append_nil]
          obtain ⟨u, y, rfl⟩ := eq_snoc h0
          rintro (h | ⟨v, w, h, hw⟩ | ⟨v, h, _⟩)
          · cases h
          · have e : a :: b :: '.' :: c' :: (u ++ [y]) = (a :: b :: '.' :: c' :: u) ++ [y] := rfl
            rw [e] at h
            obtain ⟨_, rfl⟩ := snoc_inj h
            exact notsep hm h0 u y rfl hw
          · cases h
        obtain ⟨rfl, _⟩ : z = ['\\'] ∧ _ := by
          rcases hz with h | h
          · exact absurd h.2 hno
          · exact h
        exact .inl ⟨a :: b :: '.' :: c' :: (name ++ ['\\']), [], by simp, .device _ _ _ _ _ _ ha hb hc rfl hm, .inl rfl⟩
    · exact .inl (key x hx s (by simp))
  | share a b c' server name t _ ha hb hc hm hm2 h1 h2 h3 h4 ht =>
    rcases ht with ⟨rfl, rfl⟩ | ⟨x, hx, rfl⟩
    · have hno : ¬ NoSepAfter (a :: b :: (server ++ c' :: (name ++ []))) := by
        rw [List.append_nil]
        obtain ⟨u, y, rfl⟩ := eq_snoc h2
        rintro (h | ⟨v, w, h, hw⟩ | ⟨v, h, _⟩)
        · cases h
        · have e : a :: b :: (server ++ c' :: (u ++ [y])) = (a :: b :: (server ++ c' :: u)) ++ [y] := by simp
          rw [e] at h
          obtain ⟨_, rfl⟩ := snoc_inj h
          exact notsep hm2 h2 u y rfl hw
        · injection h with _ h
          injection h with _ h
          simp at h
      obtain ⟨rfl, _⟩ : z = ['\\'] ∧ _ := by
        rcases hz with h | h
        · exact absurd h.2 hno
        · exact h
      exact .inl ⟨a :: b :: (server ++ c' :: (name ++ ['\\'])), [], by simp, .share _ _ _ _ _ _ _ ha hb hc rfl hm hm2 h1 h2 h3 h4, .inl rfl⟩
    · refine .inl ⟨a :: b :: (server ++ c' :: (name ++ [x])), s ++ z, by simp, .share _ _ _ _ _ _ _ ha hb hc hx hm hm2 h1 h2 h3 h4, ?_⟩
      refine tail_sep (b := a :: b :: (server ++ c' :: (name ++ [x]))) (by simpa using hz) ?_
      rintro h0 ⟨y, e, hy⟩
      injection e with _ e
      injection e with _ e
      simp at e

/-- Putting a name in a directory. -/
theorem push_name {c n raw s : Str} {root : Bool} (h : WinParts c raw root s) (hn : WinProper n) : Inside c n (push c n) := by
  have hv : verbatim c = false := by
    obtain ⟨q, h1, _, h2, _⟩ := parts_facts h
    unfold verbatim
    rw [h1]
    exact h2
  have := (push_names (dir := c) (cs := [n]) (by simp) (by simpa using hn)).1 hv
  by_cases hs : NoSepAfter c
  · exact .inl ⟨hs, this.1 hs⟩
  · exact .inr ⟨hs, this.2 hs⟩

/-- The path of a file in a cache. -/
theorem cachePath_parts {c base id name : Str} (h : PlainDir c) (hb : WinProper base) (hi : WinProper id) (hn : WinProper name) :
    Inside c (base ++ '\\' :: (id ++ '\\' :: name)) (cachePath c base id name) ∧
    ∃ a d, cachePath c base id name = (a ++ (d ++ id)) ++ '\\' :: name ∧ WinAnchored a ((d ++ id) ++ '\\' :: name) ∧ EndsSep d := by
  obtain ⟨raw, root, s, h⟩ := h
  have i1 := push_name h hb
  have hp1 : (∃ raw root s, WinParts (push c base) raw root s) ∧ ¬ NoSepAfter (push c base) ∧
      ¬ ∃ x y z, winSep z = true ∧ push c base = [x, y, '.', z] := by
    have hend : ∀ x y z, winSep z = true → push c base ≠ [x, y, '.', z] := by
      intro x y z hz e
      obtain ⟨w, hw, _⟩ := inside_sep i1
      have : EndsSep (push c base) := .inr ⟨[x, y, '.'], z, e, hz⟩
      rw [hw, ← List.append_assoc] at this
      exact ends_name hb this
    rcases parts_inside h hb i1 with ⟨a, d, e, ha, hd⟩ | ⟨x, y, z, hx, hy, hz, _, e⟩
    · obtain ⟨raw, root, hp, _⟩ := anchored_parts ha
      rw [← e] at hp
      refine ⟨⟨_, _, _, hp⟩, ?_, fun ⟨x, y, z, hz, e⟩ => hend x y z hz e⟩
      rw [e]
      exact anchored_not_after ha (ends_name hb)
    · have := WinParts.device x y z base [] [] hx hy hz hb.2.1 (.inl ⟨rfl, rfl⟩)
      rw [List.append_nil, ← e] at this
      refine ⟨⟨_, _, _, this⟩, ?_, fun ⟨x, y, z, hz, e⟩ => hend x y z hz e⟩
      rw [e]
      intro hns
      have := noSepAfter_ends hns (by rintro ⟨d, r, e, hd⟩; injection e with e; rw [← e, sep_not_alpha hx] at hd; cases hd)
      exact ends_name (d := [x, y, '.', z]) hb this
  obtain ⟨⟨raw1, root1, s1, h1⟩, n1, hsp⟩ := hp1
  have i2 := push_name h1 hi
  rcases parts_inside h1 hi i2 with ⟨a, d, e, ha, hd⟩ | ⟨x, y, z, hx, hy, hz, e, _⟩
  · obtain ⟨raw2, root2, h2, _⟩ := anchored_parts ha
    rw [← e] at h2
    have i3 := push_name h2 hn
    have n2 : ¬ NoSepAfter (push (push c base) id) := by rw [e]; exact anchored_not_after ha (ends_name hi)
    have e3 : cachePath c base id name = push (push c base) id ++ '\\' :: name := by
      rcases i3 with ⟨h, _⟩ | ⟨_, h⟩
      · exact absurd h n2
      · exact h
    have e2 : push (push c base) id = push c base ++ '\\' :: id := by
      rcases i2 with ⟨h, _⟩ | ⟨_, h⟩
      · exact absurd h n1
      · exact h
    refine ⟨?_, a, d, by rw [e3, e], ?_, hd⟩
    · rw [e3, e2]
      rcases i1 with ⟨k, e1⟩ | ⟨k, e1⟩
      · exact .inl ⟨k, by rw [e1]; simp⟩
      · exact .inr ⟨k, by rw [e1]; simp⟩
    · have hne : d ++ id ≠ [] := by simp [hi.1]
      exact anchored_change ha (fun h => driveLike_two hne h) (fun h => startsSep_two hne h)
  · exact absurd ⟨x, y, z, hz, e⟩ hsp

/-- The directory of a file in a cache. -/
theorem cachePath_parent {a d id name : Str} (ha : WinAnchored a ((d ++ id) ++ '\\' :: name)) (hd : EndsSep d) (hi : WinProper id) (hn : WinProper name) :
    parent ((a ++ (d ++ id)) ++ '\\' :: name) = some (a ++ (d ++ id)) := by
  have hne : d ++ id ≠ [] := by simp [hi.1]
  have hlast : ∀ t : Str, ∀ y : Char, d ++ id = t ++ [y, '.'] → winSep y = true → False := by
    intro t y e hy
    obtain ⟨u, x, rfl⟩ := eq_snoc hi.1
    rw [show t ++ [y, '.'] = (t ++ [y]) ++ ['.'] by simp, ← List.append_assoc] at e
    obtain ⟨e, rfl⟩ := snoc_inj e
    by_cases hu : u = []
    · subst hu; exact hi.2.2.1 rfl
    · obtain ⟨v, x, rfl⟩ := eq_snoc hu
      rw [← List.append_assoc] at e
      obtain ⟨_, hxy⟩ := snoc_inj (t := t) (y := y) (List.append_cancel_right e)
      have := noSep_last hi.2.1 x (by simp)
      rw [hxy, hy] at this
      cases this
  have hpop := pop_below (path := (a ++ (d ++ id)) ++ '\\' :: name) (a := a) (e := d ++ id) (k := []) (n := name) (x := '\\') (by simp) ha hne
    (ends_name hi) (fun ⟨t, y, e, hy⟩ => hlast t y e hy) (by
      intro e
      rcases hd with rfl | ⟨t, x, rfl, hx⟩
      · exact absurd e hi.2.2.1
      · rw [List.append_assoc] at e
        have h1 := congrArg List.length e
        have h2 := List.length_pos_iff.mpr hi.1
        simp only [List.length_append, List.length_cons, List.length_nil] at h1
        omega) rfl .nil hn
  unfold WinPath.pop at hpop
  cases hp : parent ((a ++ (d ++ id)) ++ '\\' :: name) with
  | some q => rw [hp] at hpop; exact congrArg some hpop
  | none =>
    rw [hp] at hpop
    have := congrArg List.length hpop
    simp at this

/-! ### Reading a path -/

theorem readFile_path (cab : Cab) (disk : Disk) {a s pre name : Str} (ha : WinAnchored a s) (e : a ++ s = pre ++ name) (hp : WinDirPart pre)
    (hn : WinProper name) (hd : ∀ q es, disk q = some (.dir es) → ∀ e ∈ es, WinProper e) :
    (∀ b, readFile cab disk (pre ++ name) = .ok b ↔ PathHolds cab disk (pre ++ name) b) ∧
    ((¬ ∃ b, readFile cab disk (pre ++ name) = .ok b) → readFile cab disk (pre ++ name) = .panic) := by
  have hnb : ∀ {b}, Holds cab disk (pre ++ name) b → ∀ es, disk (pre ++ name) ≠ some (.dir es) := by
    rintro b ⟨_, _, raw, _, _, _, h, _⟩ es h'
    rw [h] at h'
    cases h'
  by_cases hdir : ∃ es, disk (pre ++ name) = some (.dir es)
  · obtain ⟨es, hes⟩ := hdir
    obtain ⟨h1, h2⟩ := C107_bundle cab disk ha (es := es) (by rw [e]; exact hes) hd
    rw [e] at h1 h2
    refine ⟨fun b => ?_, fun h => h2 fun ⟨b, hb⟩ => h ⟨b, (h1 b).mpr hb⟩⟩
    rw [h1 b]
    exact ⟨.bundle es hes, fun h => by
      cases h with
      | file h => exact absurd hes (hnb h es)
      | bundle _ _ h => exact h⟩
  · have hno : ∀ es, disk (pre ++ name) ≠ some (.dir es) := fun es h => hdir ⟨es, h⟩
    obtain ⟨h1, h2⟩ := C107_file cab disk hp hn hno
    refine ⟨fun b => ?_, fun h => h2 fun ⟨b, hb⟩ => h ⟨b, (h1 b).mpr hb⟩⟩
    rw [h1 b]
    exact ⟨.file, fun h => by
      cases h with
      | file h => exact h
      | bundle es h _ => exact absurd h (hno es)⟩

/-- The same for a file in a cache. -/
theorem readFile_cached (cab : Cab) (disk : Disk) {c base id name : Str} (hc : PlainDir c) (hb : WinProper base) (hi : WinProper id)
    (hn : WinProper name) (hd : ∀ q es, disk q = some (.dir es) → ∀ e ∈ es, WinProper e) :
    (∀ b, readFile cab disk (cachePath c base id name) = .ok b ↔ PathHolds cab disk (cachePath c base id name) b) ∧
    ((¬ ∃ b, readFile cab disk (cachePath c base id name) = .ok b) → readFile cab disk (cachePath c base id name) = .panic) := by
  obtain ⟨_, a, d, e, ha, hd'⟩ := cachePath_parts hc hb hi hn
  have e' : cachePath c base id name = (a ++ ((d ++ id) ++ ['\\'])) ++ name := by rw [e]; simp
  have hp : WinDirPart (a ++ ((d ++ id) ++ ['\\'])) := by
    refine ⟨a, _, rfl, ?_, .inr ⟨d ++ id, '\\', rfl, rfl⟩⟩
    rw [show (d ++ id) ++ '\\' :: name = ((d ++ id) ++ ['\\']) ++ name by simp] at ha
    exact anchored_prefix ha
  rw [e']
  exact readFile_path cab disk ha (by simp) hp hn hd

/-! ### The places in the caches -/

theorem getBase_win {name : Str} (hn : WinProper name) : StoreDirName name (getBase name) ∧ WinProper (getBase name) := by
  have hb := getBase_spec name hn.proper
  rw [← getBase_winProper hn] at hb
  exact ⟨hb, storeDir_winProper hb hn⟩

/-- The caches are directories that are not verbatim. -/
def PlainCaches (ss : List Server) : Prop := ∀ s ∈ ss, ∀ c, s.cache = some c → PlainDir c

theorem kept_iff {cache name id path : Str} (hc : PlainDir cache) (hn : WinProper name) (hi : WinProper id) :
    Kept cache name id path ↔ path = cachePath cache (getBase name) id name := by
  obtain ⟨hb, hbp⟩ := getBase_win hn
  have he := (cachePath_parts hc hbp hi hn).1
  constructor
  · rintro ⟨b, h1, h2⟩
    rw [storeDir_unique h1 hb] at h2
    exact inside_unique h2 he
  · rintro rfl
    exact ⟨_, hb, he⟩

theorem searchInCache_none {d : Disk} {ss : List Server} {id base name : Str} :
    searchInCache d ss id base name = none ↔
      ∀ s ∈ ss, ∀ c, s.cache = some c → d (cachePath c base id name) = none := by
  unfold searchInCache
  rw [List.find?_eq_none]
  constructor
  · intro h s hs c hc
    have := h _ (List.mem_map.mpr ⟨c, List.mem_filterMap.mpr ⟨s, hs, hc⟩, rfl⟩)
    simpa [Disk.exists?] using this
  · intro h p hp
    obtain ⟨c', hc', rfl⟩ := List.mem_map.mp hp
    obtain ⟨s', hs', hcs⟩ := List.mem_filterMap.mp hc'
    unfold Disk.exists?
    rw [h s' hs' c' hcs]
    simp

theorem notCached_iff {d : Disk} {ss : List Server} {name id : Str} (hcs : PlainCaches ss) (hn : WinProper name) (hi : WinProper id) :
    NotCached d ss name id ↔ searchInCache d ss id (getBase name) name = none := by
  rw [searchInCache_none]
  unfold NotCached
  constructor
  · intro h s hs c hc
    exact h s hs c hc _ ((kept_iff (hcs s hs c hc) hn hi).mpr rfl)
  · intro h s hs c hc path hk
    rw [(kept_iff (hcs s hs c hc) hn hi).mp hk]
    exact h s hs c hc

theorem firstCached_iff {d : Disk} {ss : List Server} {name id path : Str} (hcs : PlainCaches ss) (hn : WinProper name) (hi : WinProper id) :
    FirstCached d ss name id path ↔ searchInCache d ss id (getBase name) name = some path := by
  have happ : ∀ a b : List Server, searchInCache d (a ++ b) id (getBase name) name =
      (searchInCache d a id (getBase name) name).or (searchInCache d b id (getBase name) name) := by
    intro a b
    unfold searchInCache
    rw [List.filterMap_append, List.map_append, List.find?_append]
  constructor
  · rintro ⟨before, s, after, c, rfl, hb, hc, hk, hx⟩
    rw [kept_iff (hcs s (by simp) c hc) hn hi] at hk
    rw [happ, (notCached_iff (fun s hs => hcs s (by simp [hs])) hn hi).mp hb, Option.none_or]
    unfold searchInCache
    rw [List.filterMap_cons_some hc, List.map_cons, List.find?_cons_of_pos (by rw [← hk]; exact hx), hk]
  · intro h
    induction ss with
    | nil => cases h
    | cons s ss ih =>
      have hcons := happ [s] ss
      rw [List.singleton_append] at hcons
      rw [hcons] at h
      cases h1 : searchInCache d [s] id (getBase name) name with
      | none =>
        rw [h1, Option.none_or] at h
        obtain ⟨before, s', after, c, rfl, hb, hrest⟩ := ih (fun t ht => hcs t (by simp [ht])) h
        refine ⟨s :: before, s', after, c, rfl, ?_, hrest⟩
        rw [notCached_iff (fun t ht => hcs t (by simp [ht])) hn hi] at hb
        rw [notCached_iff (fun t ht => hcs t (by rcases List.mem_cons.mp ht with rfl | ht <;> simp [*])) hn hi]
        have := happ [s] before
        rw [List.singleton_append] at this
        rw [this, h1, hb]; rfl
      | some p =>
        rw [h1, Option.some_or, Option.some.injEq] at h
        subst h
        unfold searchInCache at h1
        cases hc : s.cache with
        | none =>
          rw [List.filterMap_cons_none hc] at h1
          simp at h1
        | some c =>
          rw [List.filterMap_cons_some hc] at h1
          simp only [List.filterMap_nil, List.map_cons, List.map_nil, List.find?_cons, List.find?_nil] at h1
          split at h1
          · rename_i hx
            simp only [Option.some.injEq] at h1
            subst h1
            exact ⟨[], s, ss, c, rfl, (by intro s hs; cases hs), hc, (kept_iff (hcs s (by simp) c hc) hn hi).mpr rfl, hx⟩
          · cases h1

/-! ### What is asked for -/

theorem serverJobs_iff {net : Net} {id base name : Str} {s : Server} {js : List Job} :
    serverJobs net id base name s = .ok js ↔
      ∃ urls, Asked s.server name id urls ∧ (∀ u ∈ urls, net.validUrl u = true) ∧
        js = urls.map fun u => ⟨s.cache.map (cachePath · base id name), u⟩ := by
  unfold serverJobs
  simp only [bind_ok_iff, jobNew_iff]
  constructor
  · rintro ⟨j, ⟨hv, rfl⟩, h⟩
    split at h
    · rename_i hl
      cases h
      exact ⟨_, .packed hl, by intro u hu; rw [List.mem_singleton.mp hu]; exact hv, rfl⟩
    · rename_i hl
      simp only [bind_ok_iff, jobNew_iff, dropLastByte_iff] at h
      obtain ⟨short, ⟨c, rfl, hc⟩, j2, ⟨hv2, rfl⟩, h⟩ := h
      cases h
      refine ⟨_, .both short c rfl ?_ hc, ?_, rfl⟩
      · rintro rfl; exact hl (by simp)
      · intro u hu
        simp only [List.mem_cons, List.not_mem_nil, or_false] at hu
        rcases hu with rfl | rfl
        · exact hv
        · exact hv2
  · rintro ⟨urls, ha, hv, rfl⟩
    cases ha with
    | packed hl =>
      refine ⟨_, ⟨hv _ (by simp [jobUrl]), rfl⟩, ?_⟩
      rw [if_pos hl]
      rfl
    | both stem c e h1 h2 =>
      refine ⟨_, ⟨hv _ (by simp [jobUrl]), rfl⟩, ?_⟩
      rw [if_neg (by rw [e]; simpa using h1)]
      simp only [bind_ok_iff, jobNew_iff, dropLastByte_iff]
      exact ⟨stem, ⟨c, e, h2⟩, _, ⟨hv _ (by simp [jobUrl]), rfl⟩, rfl⟩

theorem askedAll_iff {net : Net} {id name : Str} {ss : List Server} {jobs : List Job} (hcs : PlainCaches ss) (hn : WinProper name) (hi : WinProper id) :
    AskedAll net.validUrl name id ss jobs ↔ getJobs net id (getBase name) name ss = .ok jobs := by
  constructor
  · intro h
    induction h with
    | nil => rfl
    | cons s ss urls place rest ha hv h0 h1 _ ih =>
      unfold getJobs
      rw [bind_ok_iff]
      refine ⟨_, serverJobs_iff.mpr ⟨urls, ha, hv, rfl⟩, ?_⟩
      rw [ih (fun t ht => hcs t (by simp [ht]))]
      have : s.cache.map (cachePath · (getBase name) id name) = place := by
        cases hc : s.cache with
        | none => rw [h0 hc]; rfl
        | some c =>
          obtain ⟨p, hk, hp⟩ := h1 c hc
          rw [hp, (kept_iff (hcs s (by simp) c hc) hn hi).mp hk]; rfl
      rw [this]
      rfl
  · intro h
    induction ss generalizing jobs with
    | nil => cases h; exact .nil
    | cons s ss ih =>
      unfold getJobs at h
      rw [bind_ok_iff] at h
      obtain ⟨js, h1, h⟩ := h
      rw [bind_ok_iff] at h
      obtain ⟨rest, h2, h⟩ := h
      cases h
      obtain ⟨urls, ha, hv, rfl⟩ := serverJobs_iff.mp h1
      refine .cons s ss urls _ rest ha hv ?_ ?_ (ih (fun t ht => hcs t (by simp [ht])) h2)
      · intro hc; rw [hc]; rfl
      · intro c hc
        rw [hc]
        exact ⟨_, (kept_iff (hcs s (by simp) c hc) hn hi).mpr rfl, rfl⟩

theorem getJobs_no_err {net : Net} {id base name : Str} (ss : List Server) (m : Str) : getJobs net id base name ss ≠ .err m := by
  induction ss with
  | nil => intro h; cases h
  | cons s ss ih =>
    have hs : serverJobs net id base name s ≠ .err m := by
      unfold serverJobs Cache.Job.new dropLastByte
      intro h
      simp only at h
      repeat' split at h
      all_goals first | cases h | skip
      all_goals simp only [Res.bind] at h
      all_goals (repeat' split at h)
      all_goals cases h
      all_goals (rename_i hx; split at hx <;> cases hx)
    unfold getJobs
    intro h
    cases h1 : serverJobs net id base name s with
    | err m' => rw [h1] at h; cases h; exact hs h1
    | panic => rw [h1] at h; cases h
    | ok js =>
      rw [h1] at h
      cases h2 : getJobs net id base name ss with
      | err m' => rw [h2] at h; cases h; exact ih h2
      | panic => rw [h2] at h; cases h
      | ok rest => rw [h2] at h; cases h

theorem getJobs_cache {net : Net} {id base name : Str} {ss : List Server} {jobs : List Job}
    (h : getJobs net id base name ss = .ok jobs) {j : Job} (hj : j ∈ jobs) {p : Str} (hp : j.cache = some p) :
    ∃ s ∈ ss, ∃ c, s.cache = some c ∧ p = cachePath c base id name := by
  have hnew : ∀ {c : Option Str} {u : Str} {j : Job}, Cache.Job.new net c u = .ok j → j.cache = c := by
    intro c u j h
    unfold Cache.Job.new at h
    split at h
    · cases h; rfl
    · cases h
  induction ss generalizing jobs with
  | nil => cases h; simp at hj
  | cons s ss ih =>
    unfold getJobs at h
    cases h1 : serverJobs net id base name s with
    | err m => rw [h1] at h; cases h
    | panic => rw [h1] at h; cases h
    | ok js =>
      rw [h1] at h
      cases h2 : getJobs net id base name ss with
      | err m => rw [h2] at h; cases h
      | panic => rw [h2] at h; cases h
      | ok rest =>
        rw [h2] at h
        cases h
        rcases List.mem_append.mp hj with hj | hj
        · refine ⟨s, by simp, ?_⟩
          have : j.cache = s.cache.map (cachePath · base id name) := by
            unfold serverJobs at h1
            simp only at h1
            cases e1 : Cache.Job.new net (s.cache.map (cachePath · base id name)) (jobUrl s.server name id name) with
            | err m => rw [e1] at h1; cases h1
            | panic => rw [e1] at h1; cases h1
            | ok job =>
              rw [e1] at h1
              simp only [Res.bind] at h1
              split at h1
              · cases h1
                simp only [List.mem_singleton] at hj
                rw [hj]; exact hnew e1
              · cases e2 : dropLastByte name with
                | err m => rw [e2] at h1; cases h1
                | panic => rw [e2] at h1; cases h1
                | ok short =>
                  rw [e2] at h1
                  simp only at h1
                  cases e3 : Cache.Job.new net (s.cache.map (cachePath · base id name)) (jobUrl s.server name id (short ++ ['_'])) with
                  | err m => rw [e3] at h1; cases h1
                  | panic => rw [e3] at h1; cases h1
                  | ok job2 =>
                    rw [e3] at h1
                    cases h1
                    rcases List.mem_cons.mp hj with rfl | hj
                    · exact hnew e1
                    · rw [List.mem_singleton.mp hj]; exact hnew e3
          rw [hp] at this
          obtain ⟨c, hc, e⟩ := Option.map_eq_some_iff.mp this.symm
          exact ⟨c, hc, e.symm⟩
        · obtain ⟨s', hs', hc⟩ := ih h2 hj
          exact ⟨s', by simp [hs'], hc⟩

/-! ### Storing -/

theorem fetch_none {net : Net} {jobs : List Job} {w : World} (h : net.arrivals jobs = []) :
    fetchData net jobs w = (.ok none, afterHeads w jobs) := by
  simp [fetchData, checkData, h, afterHeads]

theorem fetch_failed {net : Net} {jobs : List Job} {w : World} {j : Job} {js : List Job} (h : net.arrivals jobs = j :: js)
    (hg : net.get j.url = none) : fetchData net jobs w = (.ok none, afterGet w jobs j) := by
  simp [fetchData, checkData, h, hg, afterGet]

theorem fetch_got {net : Net} {jobs : List Job} {w : World} {j : Job} {js : List Job} {st : Nat} {raw : Bytes}
    (h : net.arrivals jobs = j :: js) (hg : net.get j.url = some (st, raw)) :
    fetchData net jobs w = ((copyInCache net j.cache raw w.disk).1.map (fun ok => if ok then some raw else none),
      { afterGet w jobs j with disk := (copyInCache net j.cache raw w.disk).2 }) := by
  simp [fetchData, checkData, h, hg, afterGet]

theorem copy_stored {net : Net} {raw : Bytes} {d : Disk} {dir name : Str} (hr : ¬ Refused raw)
    (hp : parent (dir ++ '\\' :: name) = some dir) (hd : (d dir).isSome = true ∨ net.mkdirs dir = true)
    (hc : net.create (dir ++ '\\' :: name) = true) (hroom : raw.length ≤ net.room (dir ++ '\\' :: name)) :
    copyInCache net (some (dir ++ '\\' :: name)) raw d = (.ok true, d.write (dir ++ '\\' :: name) raw) := by
  unfold copyInCache
  rw [refused_iff] at hr
  rw [if_neg hr]
  have : dirOk net (dir ++ '\\' :: name) d = true := by
    unfold dirOk
    rw [hp]
    simp only [Bool.or_eq_true]
    exact hd
  simp only [this, hc, Bool.not_true, Bool.false_eq_true, if_false]
  rw [Output.dump_fits (by simpa using hroom)]
  simp

theorem copy_panics {net : Net} {raw : Bytes} {d : Disk} {dir name : Str} (hr : ¬ Refused raw)
    (hp : parent (dir ++ '\\' :: name) = some dir)
    (h : ¬ (((d dir).isSome = true ∨ net.mkdirs dir = true) ∧ net.create (dir ++ '\\' :: name) = true)) :
    (copyInCache net (some (dir ++ '\\' :: name)) raw d).1 = .panic := by
  unfold copyInCache
  rw [refused_iff] at hr
  rw [if_neg hr]
  have : dirOk net (dir ++ '\\' :: name) d = true ↔ ((d dir).isSome = true ∨ net.mkdirs dir = true) := by
    unfold dirOk
    rw [hp]
    simp only [Bool.or_eq_true]
    exact Iff.rfl
  simp only
  cases h1 : dirOk net (dir ++ '\\' :: name) d with
  | false => rfl
  | true =>
    cases h2 : net.create (dir ++ '\\' :: name) with
    | false => rfl
    | true => exact absurd ⟨this.mp h1, h2⟩ h

theorem readCabinet_name {cab : Cab} {raw b : Bytes} {name : Str} (hn : WinProper name) :
    readCabinet cab raw name = .ok (some b) ↔ FileHolds cab name raw b :=
  readCabinet_iff cab raw b [] name
    ⟨[], [], rfl, .plain _ (by rintro ⟨_, _, h, _⟩; cases h) (by rintro ⟨_, _, h, _⟩; cases h), .inl rfl⟩ hn

/-! ### The search -/

theorem search_complete {net : Net} {name id : Str} {servers : Option (List Server)} {w : World} (hn : WinProper name)
    (hi : WinProper id) (hd : ∀ q es, w.disk q = some (.dir es) → ∀ e ∈ es, WinProper e)
    (hroom : ∀ u st raw p, net.get u = some (st, raw) → raw.length ≤ net.room p) (har : ∀ js, ∀ j ∈ net.arrivals js, j ∈ js)
    (hcs : ∀ ss, servers = some ss → PlainCaches ss) {x : Option Bytes} {w' : World} (h : Search net name id servers w x w') : searchFile net name id servers w = (.ok x, w') := by
  unfold searchFile
  cases h with
  | noName _ _ h => exact absurd h hn.1
  | noServers => rw [if_neg hn.1]
  | cached ss _ path b h0 h1 h2 =>
    rw [if_neg hn.1]
    rw [firstCached_iff (hcs ss rfl) hn hi] at h1
    simp only [h1]
    obtain ⟨before, s, after, c, e, _, hc, hk, _⟩ := (firstCached_iff (hcs ss rfl) hn hi).mpr h1
    have hpc := hcs ss rfl s (by rw [e]; simp) c hc
    rw [kept_iff hpc hn hi] at hk
    subst hk
    rw [((readFile_cached net.cab w.disk hpc (getBase_win hn).2 hi hn hd).1 b).mpr h2]
    rfl
  | nowhere ss _ jobs h0 h1 h2 h3 =>
    rw [if_neg hn.1]
    simp only [(notCached_iff (hcs ss rfl) hn hi).mp h1, (askedAll_iff (hcs ss rfl) hn hi).mp h2, fetch_none h3]
  | failed ss _ jobs j js h0 h1 h2 h3 h4 =>
    rw [if_neg hn.1]
    simp only [(notCached_iff (hcs ss rfl) hn hi).mp h1, (askedAll_iff (hcs ss rfl) hn hi).mp h2, fetch_failed h3 h4]
  | refused ss _ jobs j js st raw h0 h1 h2 h3 h4 h5 =>
    rw [if_neg hn.1]
    have : copyInCache net j.cache raw w.disk = (.ok false, w.disk) := by
      unfold copyInCache
      rw [if_pos (refused_iff.mp h5)]
    simp only [(notCached_iff (hcs ss rfl) hn hi).mp h1, (askedAll_iff (hcs ss rfl) hn hi).mp h2, fetch_got h3 h4, this, Res.map_ok]
    rfl
  | fetched ss _ jobs j js st raw b h0 h1 h2 h3 h4 h5 h6 h7 =>
    rw [if_neg hn.1]
    have : copyInCache net j.cache raw w.disk = (.ok true, w.disk) := by
      unfold copyInCache
      rw [if_neg (by rw [← refused_iff]; exact h5), h6]
    simp only [(notCached_iff (hcs ss rfl) hn hi).mp h1, (askedAll_iff (hcs ss rfl) hn hi).mp h2, fetch_got h3 h4, this, Res.map_ok, if_true,
      (readCabinet_name hn).mpr h7]
    rfl
  | stored ss _ jobs j js st raw b dir h0 h1 h2 h3 h4 h5 h6 h7 h8 h9 =>
    rw [if_neg hn.1]
    have hj : j ∈ jobs := har _ _ (by rw [h3]; simp)
    obtain ⟨s, hs, c, hc, e⟩ := getJobs_cache ((askedAll_iff (hcs ss rfl) hn hi).mp h2) hj h6
    obtain ⟨_, a, d, e2, ha, hd'⟩ := cachePath_parts (hcs ss rfl s hs c hc) (getBase_win hn).2 hi hn
    have hdir : dir = a ++ (d ++ id) := (List.append_inj' (e.trans e2) rfl).1
    subst hdir
    have := copy_stored h5 (cachePath_parent ha hd' hi hn) h7 h8 (hroom _ _ _ _ h4)
    rw [← h6] at this
    simp only [(notCached_iff (hcs ss rfl) hn hi).mp h1, (askedAll_iff (hcs ss rfl) hn hi).mp h2, fetch_got h3 h4, this, Res.map_ok, if_true,
      (readCabinet_name hn).mpr h9]

theorem search_sound {net : Net} {name id : Str} {servers : Option (List Server)} {w : World} (hn : WinProper name)
    (hi : WinProper id) (hd : ∀ q es, w.disk q = some (.dir es) → ∀ e ∈ es, WinProper e)
    (hroom : ∀ u st raw p, net.get u = some (st, raw) → raw.length ≤ net.room p) (har : ∀ js, ∀ j ∈ net.arrivals js, j ∈ js)
    (hcs : ∀ ss, servers = some ss → PlainCaches ss) :
    (∃ x w', Search net name id servers w x w') ∨ (searchFile net name id servers w).1 = .panic := by
  cases servers with
  | none => exact .inl ⟨_, _, .noServers w⟩
  | some ss =>
    cases hsc : searchInCache w.disk ss id (getBase name) name with
    | some path =>
      obtain ⟨before, s, after, c, e, _, hc, hk, _⟩ := (firstCached_iff (hcs ss rfl) hn hi).mpr hsc
      have hpc := hcs ss rfl s (by rw [e]; simp) c hc
      have hr := readFile_cached net.cab w.disk hpc (getBase_win hn).2 hi hn hd
      rw [← (kept_iff hpc hn hi).mp hk] at hr
      by_cases hx : ∃ b, readFile net.cab w.disk path = .ok b
      · obtain ⟨b, hb⟩ := hx
        exact .inl ⟨_, _, .cached ss w path b hn.1 ((firstCached_iff (hcs ss rfl) hn hi).mpr hsc) ((hr.1 b).mp hb)⟩
      · right
        unfold searchFile
        rw [if_neg hn.1]
        simp only [hsc, hr.2 hx, Res.map_panic]
    | none =>
      have hfree := (notCached_iff (hcs ss rfl) hn hi).mpr hsc
      cases hj : getJobs net id (getBase name) name ss with
      | err m => exact absurd hj (getJobs_no_err ss m)
      | panic =>
        right
        unfold searchFile
        rw [if_neg hn.1]
        simp only [hsc, hj]
      | ok jobs =>
        have hall := (askedAll_iff (hcs ss rfl) hn hi).mpr hj
        cases har' : net.arrivals jobs with
        | nil => exact .inl ⟨_, _, .nowhere ss w jobs hn.1 hfree hall har'⟩
        | cons j js =>
          cases hg : net.get j.url with
          | none => exact .inl ⟨_, _, .failed ss w jobs j js hn.1 hfree hall har' hg⟩
          | some sr =>
            obtain ⟨st, raw⟩ := sr
            by_cases href : Refused raw
            · exact .inl ⟨_, _, .refused ss w jobs j js st raw hn.1 hfree hall har' hg href⟩
            · by_cases hb : ∃ b, FileHolds net.cab name raw b
              · obtain ⟨b, hb⟩ := hb
                cases hc : j.cache with
                | none => exact .inl ⟨_, _, .fetched ss w jobs j js st raw b hn.1 hfree hall har' hg href hc hb⟩
                | some p =>
                  have hm : j ∈ jobs := har _ _ (by rw [har']; simp)
                  obtain ⟨s, hs, c, hc', e⟩ := getJobs_cache hj hm hc
                  obtain ⟨_, a, d, e2, ha, hd'⟩ := cachePath_parts (hcs ss rfl s hs c hc') (getBase_win hn).2 hi hn
                  have hpp : p = (a ++ (d ++ id)) ++ '\\' :: name := e.trans e2
                  have hpar := cachePath_parent ha hd' hi hn
                  by_cases hok : ((w.disk (a ++ (d ++ id))).isSome = true ∨ net.mkdirs (a ++ (d ++ id)) = true) ∧
                      net.create ((a ++ (d ++ id)) ++ '\\' :: name) = true
                  · exact .inl ⟨_, _, .stored ss w jobs j js st raw b (a ++ (d ++ id)) hn.1 hfree hall har' hg href (by rw [hc, hpp])
                      hok.1 hok.2 hb⟩
                  · right
                    have := copy_panics (net := net) (d := w.disk) href hpar hok
                    rw [← hpp, ← hc] at this
                    unfold searchFile
                    rw [if_neg hn.1]
                    simp only [hsc, hj, fetch_got har' hg, this, Res.map_panic]
              · right
                have hno : ∀ b, readCabinet net.cab raw name ≠ .ok (some b) :=
                  fun b h => hb ⟨b, (readCabinet_name hn).mp h⟩
                unfold searchFile
                rw [if_neg hn.1]
                simp only [hsc, hj, fetch_got har' hg]
                have hcp : (copyInCache net j.cache raw w.disk).1 = .ok true ∨ (copyInCache net j.cache raw w.disk).1 = .panic := by
                  unfold copyInCache
                  rw [if_neg (by rw [← refused_iff]; exact href)]
                  split
                  · exact .inl rfl
                  · simp only
                    split
                    · exact .inr rfl
                    · split
                      · exact .inr rfl
                      · rw [Output.dump_fits (by simpa using hroom _ _ _ _ hg)]
                        exact .inl rfl
                rcases hcp with h | h
                · simp only [h, Res.map_ok, if_true]
                · simp only [h, Res.map_panic]

/-- **C110**: what a search gives and leaves behind on Windows is described by `Search`; if nothing is, the search panics. -/
theorem C110_search (net : Net) (name id : Str) (servers : Option (List Server)) (w : World) (hn : WinProper name)
    (hi : WinProper id) (hd : ∀ q es, w.disk q = some (.dir es) → ∀ e ∈ es, WinProper e)
    (hroom : ∀ u st raw p, net.get u = some (st, raw) → raw.length ≤ net.room p) (har : ∀ js, ∀ j ∈ net.arrivals js, j ∈ js)
    (hcs : ∀ ss, servers = some ss → PlainCaches ss) :
    (∀ x w', searchFile net name id servers w = (.ok x, w') ↔ Search net name id servers w x w') ∧
    ((¬ ∃ x w', Search net name id servers w x w') → (searchFile net name id servers w).1 = .panic) := by
  have hs := search_sound (servers := servers) hn hi hd hroom har hcs
  refine ⟨fun x w' => ⟨fun h => ?_, search_complete hn hi hd hroom har hcs⟩, fun h => hs.resolve_left h⟩
  rcases hs with ⟨x', w'', h'⟩ | h'
  · have := search_complete hn hi hd hroom har hcs h'
    rw [h] at this
    cases this
    exact h'
  · rw [h] at h'
    cases h'

/-! ## C45 -/

/-- **C110, served back**: a file that was downloaded and stored in a cache is found again with the same contents and without any request, by every later
search that finds the places of the file in the caches as this one left them. -/
theorem C110_served_back {net : Net} {name id : Str} {ss : List Server} {w w1 w' : World} {b : Bytes} (hn : WinProper name) (hi : WinProper id)
    (hd : ∀ q es, w.disk q = some (.dir es) → ∀ e ∈ es, WinProper e)
    (hroom : ∀ u st raw p, net.get u = some (st, raw) → raw.length ≤ net.room p) (har : ∀ js, ∀ j ∈ net.arrivals js, j ∈ js)
    (hcs : PlainCaches ss) (h : searchFile net name id (some ss) w = (.ok (some b), w1)) (hst : w1.disk ≠ w.disk)
    (hsame : ∀ s ∈ ss, ∀ c, s.cache = some c → ∀ p, Kept c name id p → w'.disk p = w1.disk p)
    (net' : Net) (hcab : net'.cab = net.cab) : searchFile net' name id (some ss) w' = (.ok (some b), w') := by
  have hs := ((C110_search net name id (some ss) w hn hi hd hroom har (fun _ e => by cases e; exact hcs)).1 _ _).mp h
  cases hs with
  | cached => exact absurd rfl hst
  | fetched => exact absurd rfl hst
  | stored _ _ jobs j js st raw _ dir h0 h1 h2 h3 h4 h5 h6 h7 h8 h9 =>
    have hj : j ∈ jobs := har _ _ (by rw [h3]; simp)
    obtain ⟨s, hs, c, hc, e⟩ := getJobs_cache ((askedAll_iff hcs hn hi).mp h2) hj h6
    have hk : Kept c name id (dir ++ '\\' :: name) := (kept_iff (hcs s hs c hc) hn hi).mpr e
    have hdisk : w'.disk (dir ++ '\\' :: name) = some (.file raw true) := by
      rw [hsame s hs c hc _ hk]
      simp [Disk.write]
    have hfind : searchInCache w'.disk ss id (getBase name) name = some (dir ++ '\\' :: name) := by
      have hmem : dir ++ '\\' :: name ∈ (ss.filterMap (·.cache)).map (cachePath · (getBase name) id name) :=
        List.mem_map.mpr ⟨c, List.mem_filterMap.mpr ⟨s, hs, hc⟩, e.symm⟩
      unfold searchInCache
      cases hf : ((ss.filterMap (·.cache)).map (cachePath · (getBase name) id name)).find? w'.disk.exists? with
      | none =>
        have := List.find?_eq_none.mp hf _ hmem
        simp [Disk.exists?, hdisk] at this
      | some q =>
        have hq := List.find?_some hf
        obtain ⟨c', hc', rfl⟩ := List.mem_map.mp (List.mem_of_find?_eq_some hf)
        obtain ⟨s', hs', hcs'⟩ := List.mem_filterMap.mp hc'
        have hk' : Kept c' name id (cachePath c' (getBase name) id name) := (kept_iff (hcs s' hs' c' hcs') hn hi).mpr rfl
        by_cases hpq : cachePath c' (getBase name) id name = dir ++ '\\' :: name
        · rw [hpq]
        · exfalso
          unfold Disk.exists? at hq
          rw [hsame s' hs' c' hcs' _ hk'] at hq
          simp only [Disk.write, hpq, if_false] at hq
          rw [h1 s' hs' c' hcs' _ hk'] at hq
          cases hq
    obtain ⟨_, a, d, e2, ha, hd'⟩ := cachePath_parts (hcs s hs c hc) (getBase_win hn).2 hi hn
    have e3 : dir ++ '\\' :: name = (a ++ ((d ++ id) ++ ['\\'])) ++ name := by rw [e, e2]; simp
    have hp : WinDirPart (a ++ ((d ++ id) ++ ['\\'])) := by
      refine ⟨a, _, rfl, ?_, .inr ⟨d ++ id, '\\', rfl, rfl⟩⟩
      rw [show (d ++ id) ++ '\\' :: name = ((d ++ id) ++ ['\\']) ++ name by simp] at ha
      exact anchored_prefix ha
    have hread : readFile net.cab w'.disk (dir ++ '\\' :: name) = .ok b := by
      rw [e3] at hdisk ⊢
      refine ((C107_file net.cab w'.disk hp hn (by intro es h; rw [hdisk] at h; cases h)).1 b).mpr ?_
      exact ⟨_, name, raw, rfl, hp, hn, hdisk, h9⟩
    unfold searchFile
    rw [if_neg hn.1]
    simp only [hfind, hcab, hread, Res.map_ok]

/-- **C110, other files**: a search changes at most one file, which was not there: the place of the searched file in one of the caches. -/
theorem C110_keeps_files (net : Net) (name id : Str) (ss : List Server) (w : World) (hn : WinProper name) (hi : WinProper id)
    (hd : ∀ q es, w.disk q = some (.dir es) → ∀ e ∈ es, WinProper e)
    (hroom : ∀ u st raw p, net.get u = some (st, raw) → raw.length ≤ net.room p) (har : ∀ js, ∀ j ∈ net.arrivals js, j ∈ js)
    (hcs : PlainCaches ss) {x : Option Bytes} {w' : World} (h : searchFile net name id (some ss) w = (.ok x, w')) (q : Str) (hq : w'.disk q ≠ w.disk q) :
    w.disk q = none ∧ ∃ s ∈ ss, ∃ c, s.cache = some c ∧ Kept c name id q := by
  have hs := ((C110_search net name id (some ss) w hn hi hd hroom har (fun _ e => by cases e; exact hcs)).1 _ _).mp h
  cases hs with
  | noName _ _ h0 => exact absurd h0 hn.1
  | cached => exact absurd rfl hq
  | nowhere => exact absurd rfl hq
  | failed => exact absurd rfl hq
  | refused => exact absurd rfl hq
  | fetched => exact absurd rfl hq
  | stored _ _ jobs j js st raw b dir h0 h1 h2 h3 h4 h5 h6 h7 h8 h9 =>
    have hj : j ∈ jobs := har _ _ (by rw [h3]; simp)
    obtain ⟨s, hs, c, hc, e⟩ := getJobs_cache ((askedAll_iff hcs hn hi).mp h2) hj h6
    have hk : Kept c name id (dir ++ '\\' :: name) := (kept_iff (hcs s hs c hc) hn hi).mpr e
    by_cases hqe : q = dir ++ '\\' :: name
    · subst hqe
      exact ⟨h1 s hs c hc _ hk, s, hs, c, hc, hk⟩
    · exact absurd (by simp [Disk.write, hqe]) hq

/-! ### The servers of a run -/

/-- **C110, the servers**: those of the symbol path given, or those of the configuration file `.dump_syms\\config` in the home directory. -/
theorem C110_configured (home : Option Str) (d : Disk) (given : Option Str) (hh : ∀ h, home = some h → PlainDir h) :
    (∀ l, getSymServers home d given = .ok l ↔ Configured home d given l) ∧
    ((¬ ∃ l, Configured home d given l) → getSymServers home d given = .panic) := by
  have hconf : ∀ h : Str, PlainDir h → Inside h (str% ".dump_syms\\config") (push (push h (str% ".dump_syms")) (str% "config")) := by
    rintro h ⟨raw, root, s, hp⟩
    have p1 : WinProper (str% ".dump_syms") := winProper_of (by decide)
    have p2 : WinProper (str% "config") := winProper_of (by decide)
    have i1 := push_name hp p1
    have hns : (∃ raw root s, WinParts (push h (str% ".dump_syms")) raw root s) ∧ ¬ NoSepAfter (push h (str% ".dump_syms")) := by
      rcases parts_inside hp p1 i1 with ⟨a, d, e, ha, hd⟩ | ⟨x, y, z, hx, hy, hz, _, e⟩
      · obtain ⟨raw, root, hq, _⟩ := anchored_parts ha
        rw [← e] at hq
        exact ⟨⟨_, _, _, hq⟩, by rw [e]; exact anchored_not_after ha (ends_name p1)⟩
      · have := WinParts.device x y z (str% ".dump_syms") [] [] hx hy hz p1.2.1 (.inl ⟨rfl, rfl⟩)
        rw [List.append_nil, ← e] at this
        refine ⟨⟨_, _, _, this⟩, ?_⟩
        rw [e]
        intro hns
        have := noSepAfter_ends hns (by rintro ⟨d, r, e, hd⟩; injection e with e; rw [← e, sep_not_alpha hx] at hd; cases hd)
        exact ends_name (d := [x, y, '.', z]) p1 this
    obtain ⟨⟨_, _, _, h1⟩, n1⟩ := hns
    have e2 : push (push h (str% ".dump_syms")) (str% "config") = push h (str% ".dump_syms") ++ '\\' :: str% "config" := by
      rcases push_name h1 p2 with ⟨k, _⟩ | ⟨_, k⟩
      · exact absurd k n1
      · exact k
    rw [e2]
    rcases i1 with ⟨k, e1⟩ | ⟨k, e1⟩
    · exact .inl ⟨k, by rw [e1]; simp⟩
    · exact .inr ⟨k, by rw [e1]; simp⟩
  have hcomplete : ∀ l, Configured home d given l → getSymServers home d given = .ok l := by
    intro l h
    cases h with
    | given s _ h => exact congrArg Res.ok (Cache.serversIn_iff.mp h)
    | noHome h => subst h; rfl
    | noConfig h conf e hi hd =>
      subst e
      obtain rfl := inside_unique hi (hconf h (hh h rfl))
      simp only [getSymServers, readConfig, hd]
    | config h conf raw s _ e hi hd hs h' =>
      subst e
      obtain rfl := inside_unique hi (hconf h (hh h rfl))
      simp only [getSymServers, readConfig, hd, hs, Cache.serversIn_iff.mp h']
  have hsound : (∃ l, Configured home d given l) ∨ getSymServers home d given = .panic := by
    cases given with
    | some s => exact .inl ⟨_, .given s _ (Cache.serversIn_iff.mpr rfl)⟩
    | none =>
      cases home with
      | none => exact .inl ⟨_, .noHome rfl⟩
      | some h =>
        have hi := hconf h (hh h rfl)
        cases hd : d (push (push h (str% ".dump_syms")) (str% "config")) with
        | none => exact .inl ⟨_, .noConfig h _ rfl hi hd⟩
        | some n =>
          match n, hd with
          | .file b true, hd =>
            cases hs : Utf8.decode b with
            | none => right; simp only [getSymServers, readConfig, hd, hs]
            | some s => exact .inl ⟨_, .config h _ b s _ rfl hi hd hs (Cache.serversIn_iff.mpr rfl)⟩
          | .file b false, hd => right; simp only [getSymServers, readConfig, hd]
          | .dir es, hd => right; simp only [getSymServers, readConfig, hd]
  refine ⟨fun l => ⟨fun h => ?_, hcomplete l⟩, fun h => hsound.resolve_left h⟩
  rcases hsound with ⟨l', h'⟩ | h'
  · rw [hcomplete l' h'] at h
    cases h
    exact h'
  · rw [h'] at h
    cases h

/-! ## C111 -/

/-- **C111**: on Windows, which PDB is taken for a PE and which state is left, both directions; the search panics in every other case. -/
theorem C111_source (net : Net) (parse : WinUtils.ParsePe) (cwd path : Str) (buf : Bytes)
    (servers : Option (List Server)) (w : World) {pe : WinUtils.Pe} (hpe : parse buf = some pe) (hpath : ∃ dir, WinDirOf path dir)
    (hcwd : ∃ dir, WinDirOf cwd dir)
    (hrec : ∀ r, pe.debugFileName = some r → WinPath.fileName r = none ∨ ∃ pre name, r = pre ++ name ∧ WinDirPart pre ∧ WinProper name)
    (hi : WinProper pe.debugId) (hd : ∀ q es, w.disk q = some (.dir es) → ∀ e ∈ es, WinProper e)
    (hroom : ∀ u st raw p, net.get u = some (st, raw) → raw.length ≤ net.room p) (har : ∀ js, ∀ j ∈ net.arrivals js, j ∈ js)
    (hcs : ∀ ss, servers = some ss → PlainCaches ss) :
    (∀ x w', getPePdbBuf net parse cwd path buf servers w = (.ok x, w') ↔
      ∃ y, PdbFor net cwd path pe.debugId servers w pe.debugFileName y w' ∧ x = y.map fun y => (pe, y.1, y.2)) ∧
    ((¬ ∃ y w', PdbFor net cwd path pe.debugId servers w pe.debugFileName y w') →
      (getPePdbBuf net parse cwd path buf servers w).1 = .panic) := by
  have hcomplete : ∀ y w', PdbFor net cwd path pe.debugId servers w pe.debugFileName y w' →
      getPePdbBuf net parse cwd path buf servers w = (.ok (y.map fun y => (pe, y.1, y.2)), w') := by
    intro y w' h
    unfold getPePdbBuf
    simp only [hpe]
    generalize hr : pe.debugFileName = rec at h
    cases h with
    | unnamed => rfl
    | noFile r h1 =>
      simp only [C109_nameless net.cab w.disk cwd path r h1, if_true]
      rfl
    | onDisk pre name ps before p after b h0 h1 h2 h3 h4 h5 h6 =>
      have := (((C109_places_partial net.cab w.disk h0 h1 h2).1 before p after h3 h4 h5).1 b).mpr h6
      simp only [this, if_neg h1.1]
      rfl
    | searched pre name ps x _ h0 h1 h2 h3 h4 =>
      have := (C109_places_partial net.cab w.disk h0 h1 h2).2 h3
      have hs := ((C110_search net name pe.debugId servers w h1 hi hd hroom har hcs).1 x w').mpr h4
      simp only [this, if_neg h1.1, hs, Res.map_ok]
      cases x <;> rfl
  have hsound : (∃ y w', PdbFor net cwd path pe.debugId servers w pe.debugFileName y w') ∨
      (getPePdbBuf net parse cwd path buf servers w).1 = .panic := by
    cases hr : pe.debugFileName with
    | none => exact .inl ⟨_, _, .unnamed⟩
    | some r =>
      rcases hrec r hr with hf | ⟨pre, name, rfl, hpre, hn⟩
      · exact .inl ⟨_, _, .noFile r hf⟩
      · obtain ⟨dir, h1⟩ := hpath
        obtain ⟨cdir, h2⟩ := hcwd
        obtain ⟨stem, h3⟩ := baseName_exists name
        have hpl : Places cwd path (pre ++ name) name _ := .mk dir cdir stem h1 h2 h3
        generalize [pre ++ name, dir ++ name, dir ++ (stem ++ str% ".pd_"), cdir ++ name] = ps at hpl
        have h57 := C109_places_partial net.cab w.disk hpre hn hpl
        cases hfind : ps.find? w.disk.isFile with
        | some p =>
          obtain ⟨hp, before, after, e, hb⟩ := List.find?_eq_some_iff_append.mp hfind
          have hb' : ∀ q ∈ before, ¬ IsFile w.disk q := by
            intro q hq h
            have := hb q hq
            rw [isFile_iff.mpr h] at this
            cases this
          by_cases hx : ∃ b, Holds net.cab w.disk p b
          · obtain ⟨b, hx⟩ := hx
            exact .inl ⟨_, _, .onDisk pre name ps before p after b hpre hn hpl e hb' (isFile_iff.mp hp) hx⟩
          · right
            have := (h57.1 before p after e hb' (isFile_iff.mp hp)).2 hx
            unfold getPePdbBuf
            simp only [hpe, hr, this]
        | none =>
          have hno : ∀ q ∈ ps, ¬ IsFile w.disk q := by
            intro q hq h
            have := List.find?_eq_none.mp hfind q hq
            exact this (isFile_iff.mpr h)
          obtain ⟨hs1, hs2⟩ := C110_search net name pe.debugId servers w hn hi hd hroom har hcs
          by_cases hx : ∃ x w', Search net name pe.debugId servers w x w'
          · obtain ⟨x, w', hx⟩ := hx
            exact .inl ⟨_, _, .searched pre name ps x w' hpre hn hpl hno hx⟩
          · right
            unfold getPePdbBuf
            simp only [hpe, hr, h57.2 hno, if_neg hn.1, hs2 hx, Res.map_panic]
  refine ⟨fun x w' => ⟨fun h => ?_, ?_⟩, fun h => hsound.resolve_left h⟩
  · rcases hsound with ⟨y, w'', hy⟩ | hy
    · have := hcomplete y w'' hy
      rw [h] at this
      cases this
      exact ⟨y, hy, rfl⟩
    · rw [h] at hy
      cases hy
  · rintro ⟨y, hy, rfl⟩
    exact hcomplete y w' hy

/-! ### Examples -/

/-- Caches on a share, on a drive, in the current directory of a drive, in the current directory and on a device. -/
theorem ex_dir_share : PlainDir (str% "\\\\srv\\share") :=
  ⟨_, _, _, .share '\\' '\\' '\\' (str% "srv") (str% "share") [] [] (by decide) (by decide) (by decide) ⟨by decide, by decide⟩ ⟨by decide, by decide⟩ (by decide) (by decide)
    (by decide) (by decide) (.inl ⟨rfl, rfl⟩)⟩
theorem ex_dir_drive : PlainDir (str% "C:\\cache\\") := ⟨_, _, _, .driveRooted 'C' '\\' _ (by decide) (by decide)⟩
theorem ex_dir_here : PlainDir (str% "C:") := ⟨_, _, _, .drive 'C' _ (by decide) (by rintro ⟨x, r, e, h⟩; cases e)⟩
theorem ex_dir_rel : PlainDir (str% "cache") := ⟨_, _, _, .plain _ (by rintro ⟨d, r, e, _⟩; cases e) (by rintro ⟨x, r, e, h⟩; cases e; cases h)⟩
theorem ex_dir_device : PlainDir (str% "\\\\.\\") :=
  ⟨_, _, _, .device '\\' '\\' '\\' [] [] [] (by decide) (by decide) (by decide) ⟨by decide, by decide⟩ (.inl ⟨rfl, rfl⟩)⟩

/-- The places of a compressed file in these caches; in the current directory of a drive there is no separator after the colon. -/
example : Kept (str% "\\\\srv\\share") (str% "m.dl_") (str% "ID") (str% "\\\\srv\\share\\m.dll\\ID\\m.dl_") :=
  (kept_iff ex_dir_share (winProper_of (by decide)) (winProper_of (by decide))).mpr (by decide)
example : Kept (str% "C:\\cache\\") (str% "m.pdb") (str% "ID") (str% "C:\\cache\\m.pdb\\ID\\m.pdb") :=
  (kept_iff ex_dir_drive (winProper_of (by decide)) (winProper_of (by decide))).mpr (by decide)
example : Kept (str% "C:") (str% "m.pdb") (str% "ID") (str% "C:m.pdb\\ID\\m.pdb") :=
  (kept_iff ex_dir_here (winProper_of (by decide)) (winProper_of (by decide))).mpr (by decide)
example : Kept (str% "cache") (str% "m.pdb") (str% "ID") (str% "cache\\m.pdb\\ID\\m.pdb") :=
  (kept_iff ex_dir_rel (winProper_of (by decide)) (winProper_of (by decide))).mpr (by decide)
example : Kept (str% "\\\\.\\") (str% "m.pdb") (str% "ID") (str% "\\\\.\\m.pdb\\ID\\m.pdb") :=
  (kept_iff ex_dir_device (winProper_of (by decide)) (winProper_of (by decide))).mpr (by decide)

/-- Two servers that both have the file, one of them with a cache on a share. -/
def winServers : List Server := [⟨none, str% "http://a"⟩, ⟨some (str% "\\\\srv\\share"), str% "http://b"⟩]

theorem winServers_plain : PlainCaches winServers := by
  intro s hs c hc
  simp only [winServers, List.mem_cons, List.not_mem_nil, or_false] at hs
  rcases hs with rfl | rfl
  · cases hc
  · cases hc
    exact ex_dir_share

theorem winNet_room (order : List Job → List Job) : ∀ u st raw p, (Cache.searchNet order).get u = some (st, raw) → raw.length ≤ (Cache.searchNet order).room p := by
  intro u st raw p h
  unfold Cache.searchNet at h
  simp only at h
  split at h
  · cases h; simp [Cache.searchNet]
  · split at h
    · cases h; simp [Cache.searchNet]
    · cases h

theorem winNet_arrivals : ∀ js, ∀ j ∈ (Cache.searchNet List.reverse).arrivals js, j ∈ js := by
  intro js j h
  have := (List.mem_filter.mp h).1
  simpa using this

/-- The state after the second server answered first. -/
def winAfter : World :=
  { disk := Cache.noWorld.disk.write (str% "\\\\srv\\share\\m.pdb\\ID\\m.pdb") [77, 2],
    log := [.head (str% "http://a/m.pdb/ID/m.pdb"), .head (str% "http://a/m.pdb/ID/m.pd_"), .head (str% "http://b/m.pdb/ID/m.pdb"),
      .head (str% "http://b/m.pdb/ID/m.pd_"), .get (str% "http://b/m.pdb/ID/m.pdb")] }

theorem ex_search : searchFile (Cache.searchNet List.reverse) (str% "m.pdb") (str% "ID") (some winServers) Cache.noWorld = (.ok (some [2]), winAfter) :=
  Prod.ext (by decide) rfl

example : Search (Cache.searchNet List.reverse) (str% "m.pdb") (str% "ID") (some winServers) Cache.noWorld (some [2]) winAfter :=
  ((C110_search _ _ _ _ _ (winProper_of (by decide)) (winProper_of (by decide)) (by intro q es h; cases h) (winNet_room _) winNet_arrivals
    (fun _ e => by cases e; exact winServers_plain)).1 _ _).mp ex_search

/-- The stored file is found again when the network is down. -/
example : searchFile { WinUtils.noNet with cab := Cache.exCab } (str% "m.pdb") (str% "ID") (some winServers) winAfter = (.ok (some [2]), winAfter) :=
  C110_served_back (winProper_of (by decide)) (winProper_of (by decide)) (by intro q es h; cases h) (winNet_room _) winNet_arrivals winServers_plain
    ex_search (by intro h
                  have := congrFun h (str% "\\\\srv\\share\\m.pdb\\ID\\m.pdb")
                  revert this
                  decide)
    (fun _ _ _ _ _ _ => rfl) _ rfl

/-- Nothing was stored elsewhere. -/
example : winAfter.disk (str% "C:\\x") = Cache.noWorld.disk (str% "C:\\x") := by
  by_cases h : winAfter.disk (str% "C:\\x") = Cache.noWorld.disk (str% "C:\\x")
  · exact h
  · exfalso
    obtain ⟨-, s, hs, c, hc, hk⟩ := C110_keeps_files _ _ _ _ _ (winProper_of (by decide)) (winProper_of (by decide)) (by intro q es h; cases h)
      (winNet_room _) winNet_arrivals winServers_plain ex_search _ h
    have := (kept_iff (winServers_plain s hs c hc) (winProper_of (by decide)) (winProper_of (by decide))).mp hk
    simp only [winServers, List.mem_cons, List.not_mem_nil, or_false] at hs
    rcases hs with rfl | rfl
    · cases hc
    · cases hc
      revert this
      decide

/-- The configuration file in the home directory names a server; a directory in its place makes the program panic. -/
example : Configured (some (str% "C:\\Users\\u")) (diskOf [(str% "C:\\Users\\u\\.dump_syms\\config", .file [115, 114, 118, 42, 97] true)]) none
    (some [⟨none, str% "a"⟩]) :=
  ((C110_configured _ _ _ (fun h e => by cases e; exact ⟨_, _, _, .driveRooted 'C' '\\' _ (by decide) (by decide)⟩)).1 _).mp (by decide +kernel)
example : getSymServers (some (str% "C:\\")) (diskOf [(str% "C:\\.dump_syms\\config", .dir [])]) none = .panic := by decide

/-- The PDB of a PE at the current directory of a drive comes from a server when there is none on the disk. -/
example : ∃ w', PdbFor (Cache.searchNet List.reverse) (str% "C:\\") (str% "C:m.dll") (str% "ID") (some winServers) Cache.noWorld
    (some (str% "C:\\w\\m.pdb")) (some ([2], str% "m.pdb")) w' := by
  have h := (C111_source (Cache.searchNet List.reverse)
    (fun b => if b = [80, 1] then some { debugId := str% "ID", debugFileName := some (str% "C:\\w\\m.pdb") } else none) (str% "C:\\") (str% "C:m.dll") [80, 1]
    (some winServers) Cache.noWorld rfl ⟨_, ex_dirOf_drive⟩ ⟨_, ex_dirOf_root⟩
    (fun r e => by cases e; exact .inr ⟨str% "C:\\w\\", str% "m.pdb", rfl, ex_part_drive, winProper_of (by decide)⟩)
    (winProper_of (by decide)) (by intro q es h; cases h) (winNet_room _) winNet_arrivals (fun _ e => by cases e; exact winServers_plain)).1
  obtain ⟨y, hy, e⟩ := (h (some (_, [2], str% "m.pdb")) winAfter).mp (Prod.ext (by decide) rfl)
  cases y with
  | none => cases e
  | some y =>
    obtain ⟨y1, y2⟩ := y
    cases e
    exact ⟨_, hy⟩

end WinHost
end DumpSyms
