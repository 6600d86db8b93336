import Verif.Spec.WinFiles
import Verif.Props.Search
/-!
# C43: finding the PE of a PDB; C57, C58: finding the PDB of a PE
-/
namespace DumpSyms
namespace WinUtils
open Path

theorem isFile_iff {d : Disk} {p : Str} : d.isFile p = true ↔ IsFile d p := by
  unfold Disk.isFile IsFile
  split
  · rename_i b r h; exact ⟨fun _ => ⟨b, r, h⟩, fun _ => rfl⟩
  · rename_i h
    constructor
    · intro h'; cases h'
    · rintro ⟨b, r, e⟩; exact absurd e (h b r)

/-! ### File names and their extensions -/

theorem baseName_exists (name : Str) : ∃ stem, BaseName name stem := by
  rcases split_last_dot name with hd | ⟨b, a, rfl, ha⟩
  · refine ⟨name, .bare _ ?_⟩
    rintro stem e rfl _
    simp at hd
  · by_cases hb : b = []
    · refine ⟨_, .bare _ ?_⟩
      intro stem e h he
      rw [← (last_dot_unique h ha he).1, hb]
    · exact ⟨b, .ext b a hb ha⟩

theorem baseName_unique {name s s' : Str} (h : BaseName name s) (h' : BaseName name s') : s = s' := by
  cases h with
  | ext stem e h1 h2 =>
    generalize hn : s ++ '.' :: e = n at h'
    cases h' with
    | ext stem' e' k1 k2 => exact (last_dot_unique hn h2 k2).1
    | bare _ k => exact absurd (k _ _ hn.symm h2) h1
  | bare _ k =>
    cases h' with
    | ext stem' e' k1 k2 => exact absurd (k _ _ rfl k2) k1
    | bare => rfl

theorem baseName_parts {name stem : Str} (h : BaseName name stem) (hn : ProperComp name) : stem ≠ [] ∧ '/' ∉ stem := by
  cases h with
  | ext _ e h1 h2 => exact ⟨h1, fun h => hn.2.1 (by simp [h])⟩
  | bare => exact ⟨hn.1, hn.2.1⟩

theorem baseName_set {pre name stem x : Str} (h : BaseName name stem) (hp : DirPart pre) (hn : ProperComp name) (hx : x ≠ []) :
    setExtension (pre ++ name) x = pre ++ (stem ++ '.' :: x) := by
  cases h with
  | ext _ e h1 h2 => exact setExtension_dirPart hp h1 h2 hn hx
  | bare _ k =>
    rcases split_last_dot name with hd | ⟨b, a, rfl, ha⟩
    · exact setExtension_dirPart_bare hp hd hn hx
    · obtain rfl := k b a rfl ha
      unfold setExtension fileStem
      rw [fileName_dirPart hp hn]
      simp only [rsplitDot_append [] a ha, if_true, if_neg hx, trimTrail_proper pre _ hn]
      simp

theorem dirPart_unique {pre pre' n n' : Str} (h : pre ++ n = pre' ++ n') (hp : DirPart pre) (hp' : DirPart pre') (hn : ProperComp n)
    (hn' : ProperComp n') : pre = pre' ∧ n = n' := by
  have h1 := fileName_dirPart hp hn
  rw [h, fileName_dirPart hp' hn'] at h1
  cases h1
  exact ⟨List.append_cancel_right h, rfl⟩

/-- The extensions the loop is run on. -/
def GoodExt (x : Str × Str) : Prop :=
  x.1 ≠ [] ∧ '.' ∉ x.1 ∧ '/' ∉ x.1 ∧ x.2 ≠ [] ∧ '.' ∉ x.2 ∧ '/' ∉ x.2 ∧
    x.2 = (if x.1.getLast? = some '_' then fixExtension x.1 else x.1)

theorem goodExts : ∀ x ∈ peExts, GoodExt x := by unfold GoodExt; decide

section
variable (cab : Cab) (parse : ParsePe) (d : Disk) (id : Str) (hd : ∀ q es, d q = some (.dir es) → ∀ e ∈ es, ProperComp e)
include hd

/-- One round of the loop. -/
theorem findLoop_step {pre name stem : Str} (hp : DirPart pre) (hn : ProperComp name) (hb : BaseName name stem) {x : Str × Str}
    (hx : GoodExt x) (exts : List Str) :
    (NoPe cab parse d id (pre ++ (stem ++ '.' :: x.1)) → ∃ n', ProperComp n' ∧ BaseName n' stem ∧
      findLoop cab parse d id (pre ++ name) (x.1 :: exts) = findLoop cab parse d id (pre ++ n') exts) ∧
    (∀ buf, IsPe cab parse d id (pre ++ (stem ++ '.' :: x.1)) buf →
      findLoop cab parse d id (pre ++ name) (x.1 :: exts) = .ok (some (stem ++ '.' :: x.2, buf))) ∧
    (NoPe cab parse d id (pre ++ (stem ++ '.' :: x.1)) ∨ (∃ buf, IsPe cab parse d id (pre ++ (stem ++ '.' :: x.1)) buf) ∨
      findLoop cab parse d id (pre ++ name) (x.1 :: exts) = .panic) := by
  obtain ⟨h1, h2, h3, h4, h5, h6, h7⟩ := hx
  obtain ⟨hs, hs'⟩ := baseName_parts hb hn
  have hc1 : ProperComp (stem ++ '.' :: x.1) := proper_stem hs hs' h1 h3
  have hc2 : ProperComp (stem ++ '.' :: x.2) := proper_stem hs hs' h4 h6
  have hb1 : BaseName (stem ++ '.' :: x.1) stem := .ext _ _ hs h2
  have hb2 : BaseName (stem ++ '.' :: x.2) stem := .ext _ _ hs h5
  have hread := C77_read cab d pre (stem ++ '.' :: x.1) hp hc1 hd
  have hset : (if x.1.getLast? = some '_' then setExtension (pre ++ (stem ++ '.' :: x.1)) (fixExtension x.1)
      else pre ++ (stem ++ '.' :: x.1)) = pre ++ (stem ++ '.' :: x.2) := by
    by_cases hl : x.1.getLast? = some '_'
    · rw [if_pos hl] at h7 ⊢
      rw [← h7]
      exact baseName_set hb1 hp hc1 h4
    · rw [if_neg hl] at h7 ⊢
      rw [h7]
  have hname : Utils.getFilename (pre ++ (stem ++ '.' :: x.2)) = .ok (stem ++ '.' :: x.2) := by
    unfold Utils.getFilename
    rw [fileName_dirPart hp hc2]
  refine ⟨?_, ?_, ?_⟩
  · rintro (hf | ⟨buf, hb, hno⟩)
    · refine ⟨_, hc1, hb1, ?_⟩
      rw [← isFile_iff] at hf
      simp only [findLoop, baseName_set hb hp hn h1, if_neg hf]
    · by_cases hf : IsFile d (pre ++ (stem ++ '.' :: x.1))
      · rw [← isFile_iff] at hf
        cases hpe : parse buf with
        | none =>
          refine ⟨_, hc1, hb1, ?_⟩
          simp only [findLoop, baseName_set (by assumption) hp hn h1, hf, if_true, (hread.1 buf).mpr hb, hpe]
        | some pe =>
          refine ⟨_, hc2, hb2, ?_⟩
          simp only [findLoop, baseName_set (by assumption) hp hn h1, hf, if_true, (hread.1 buf).mpr hb, hpe, hset, hname, if_neg (hno pe hpe)]
      · refine ⟨_, hc1, hb1, ?_⟩
        rw [← isFile_iff] at hf
        simp only [findLoop, baseName_set (by assumption) hp hn h1, if_neg hf]
  · rintro buf ⟨hf, hbuf, pe, hpe, hid⟩
    rw [← isFile_iff] at hf
    simp only [findLoop, baseName_set hb hp hn h1, hf, if_true, (hread.1 buf).mpr hbuf, hpe, hset, hname, if_pos hid]
  · by_cases hf : IsFile d (pre ++ (stem ++ '.' :: x.1))
    · by_cases hbuf : ∃ buf, Files.readFile cab d (pre ++ (stem ++ '.' :: x.1)) = .ok buf
      · obtain ⟨buf, hbuf⟩ := hbuf
        rw [hread.1] at hbuf
        by_cases hpe : ∃ pe, parse buf = some pe ∧ pe.debugId = id
        · exact .inr (.inl ⟨buf, hf, hbuf, hpe⟩)
        · exact .inl (.inr ⟨buf, hbuf, fun pe h1 h2 => hpe ⟨pe, h1, h2⟩⟩)
      · have := hread.2 hbuf
        rw [← isFile_iff] at hf
        refine .inr (.inr ?_)
        simp only [findLoop, baseName_set hb hp hn h1, hf, if_true, this]
    · exact .inl (.inl hf)

theorem findLoop_skip {pre stem : Str} (hp : DirPart pre) (before : List (Str × Str)) (hg : ∀ x ∈ before, GoodExt x)
    (hno : ∀ e ∈ before, NoPe cab parse d id (pre ++ (stem ++ '.' :: e.1))) (exts : List Str) :
    ∀ {name : Str}, ProperComp name → BaseName name stem → ∃ n', ProperComp n' ∧ BaseName n' stem ∧
      findLoop cab parse d id (pre ++ name) (before.map (·.1) ++ exts) = findLoop cab parse d id (pre ++ n') exts := by
  induction before with
  | nil => intro name hn hb; exact ⟨name, hn, hb, rfl⟩
  | cons x before ih =>
    intro name hn hb
    obtain ⟨n1, hn1, hb1, e1⟩ := (findLoop_step cab parse d id hd hp hn hb (hg x (by simp)) (before.map (·.1) ++ exts)).1
      (hno x (by simp))
    obtain ⟨n2, hn2, hb2, e2⟩ := ih (fun y hy => hg y (by simp [hy])) (fun y hy => hno y (by simp [hy])) hn1 hb1
    exact ⟨n2, hn2, hb2, by rw [List.map_cons, List.cons_append, e1, e2]⟩

theorem findLoop_cases {pre stem : Str} (hp : DirPart pre) (exts : List (Str × Str)) (hg : ∀ x ∈ exts, GoodExt x) :
    ∀ {name : Str}, ProperComp name → BaseName name stem →
    (∃ before ext rep after buf, exts = before ++ (ext, rep) :: after ∧
      (∀ e ∈ before, NoPe cab parse d id (pre ++ (stem ++ '.' :: e.1))) ∧ IsPe cab parse d id (pre ++ (stem ++ '.' :: ext)) buf) ∨
    (∀ e ∈ exts, NoPe cab parse d id (pre ++ (stem ++ '.' :: e.1))) ∨
    findLoop cab parse d id (pre ++ name) (exts.map (·.1)) = .panic := by
  induction exts with
  | nil => intro name _ _; exact .inr (.inl (by simp))
  | cons x exts ih =>
    intro name hn hb
    obtain ⟨s1, _, s3⟩ := findLoop_step cab parse d id hd hp hn hb (hg x (by simp)) (exts.map (·.1))
    rcases s3 with hno | ⟨buf, hpe⟩ | hpan
    · obtain ⟨n1, hn1, hb1, e1⟩ := s1 hno
      rcases ih (fun y hy => hg y (by simp [hy])) hn1 hb1 with ⟨before, ext, rep, after, buf, k1, k2, k3⟩ | k | k
      · refine .inl ⟨x :: before, ext, rep, after, buf, by rw [k1]; rfl, ?_, k3⟩
        intro e he
        rcases List.mem_cons.mp he with rfl | he
        · exact hno
        · exact k2 e he
      · refine .inr (.inl ?_)
        intro e he
        rcases List.mem_cons.mp he with rfl | he
        · exact hno
        · exact k e he
      · exact .inr (.inr (by rw [List.map_cons, e1, k]))
    · exact .inl ⟨[], x.1, x.2, exts, buf, rfl, by simp, hpe⟩
    · exact .inr (.inr hpan)

/-- **C43**: the chosen PE is the first of the four candidates beside the PDB that is a PE with the PDB's debug id, and is reported under
an uncompressed extension; none is chosen if none of the four is.  The search panics when a candidate that comes before the first
match is a file that cannot be read. -/
theorem C43_pe_of_pdb {pre name : Str} (hp : DirPart pre) (hn : ProperComp name) :
    (∀ x, findPeForPdb cab parse d (pre ++ name) id = .ok x ↔ PeFor cab parse d (pre ++ name) id x) ∧
    ((¬ ∃ x, PeFor cab parse d (pre ++ name) id x) → findPeForPdb cab parse d (pre ++ name) id = .panic) := by
  obtain ⟨stem, hb⟩ := baseName_exists name
  have hcomplete : ∀ x, PeFor cab parse d (pre ++ name) id x → findPeForPdb cab parse d (pre ++ name) id = .ok x := by
    intro x h
    cases h with
    | found pre' name' stem' before ext rep after buf e hp' hn' hb' h1 h2 h3 =>
      obtain ⟨rfl, rfl⟩ := dirPart_unique e hp hp' hn hn'
      obtain ⟨n1, hn1, hb1, e1⟩ := findLoop_skip cab parse d id hd hp before
        (fun y hy => goodExts y (by rw [h1]; simp [hy])) h2 (ext :: after.map (·.1)) hn hb'
      unfold findPeForPdb
      rw [show [str% "dll", str% "dl_", str% "exe", str% "ex_"] = peExts.map (·.1) from rfl, h1, List.map_append, List.map_cons, e1]
      exact (findLoop_step cab parse d id hd hp hn1 hb1 (goodExts (ext, rep) (by rw [h1]; simp)) _).2.1 buf h3
    | none pre' name' stem' e hp' hn' hb' h1 =>
      obtain ⟨rfl, rfl⟩ := dirPart_unique e hp hp' hn hn'
      obtain ⟨n1, hn1, hb1, e1⟩ := findLoop_skip cab parse d id hd hp peExts goodExts h1 [] hn hb'
      unfold findPeForPdb
      rw [show [str% "dll", str% "dl_", str% "exe", str% "ex_"] = peExts.map (·.1) ++ [] from rfl, e1]
      rfl
  have hsound : (∃ x, PeFor cab parse d (pre ++ name) id x) ∨ findPeForPdb cab parse d (pre ++ name) id = .panic := by
    rcases findLoop_cases cab parse d id hd hp peExts goodExts hn hb with ⟨before, ext, rep, after, buf, k1, k2, k3⟩ | k | k
    · exact .inl ⟨_, .found pre name stem before ext rep after buf rfl hp hn hb k1 k2 k3⟩
    · exact .inl ⟨_, .none pre name stem rfl hp hn hb k⟩
    · exact .inr k
  refine ⟨fun x => ⟨fun h => ?_, hcomplete x⟩, fun h => hsound.resolve_left h⟩
  rcases hsound with ⟨y, hy⟩ | hy
  · rw [hcomplete y hy] at h
    cases h
    exact hy
  · rw [hy] at h
    cases h

end
/-- A disk with some files. -/
def diskOf (fs : List (Str × Node)) : Disk := fun p => fs.lookup p

/-- No cabinets. -/
def noCab : Cab := fun _ => none

/-- In the examples a PE is a byte 80 (`P`) followed by its id. -/
def parseEx : ParsePe := fun b =>
  match b with
  | 80 :: 1 :: _ => some { debugId := str% "A1", debugFileName := some (str% "C:\\x\\m.pdb") }
  | 80 :: 2 :: _ => some { debugId := str% "B2", debugFileName := none }
  | _ => none

/-- The `dl_` has the wrong id, the `ex_` is chosen and reported as `exe`. -/
example : findPeForPdb noCab parseEx (diskOf [(str% "d/m.dl_", .file [80, 2] true), (str% "d/m.ex_", .file [80, 1, 7] true)])
    (str% "d/m.pdb") (str% "A1") = .ok (some (str% "m.exe", [80, 1, 7])) := by decide
example : findPeForPdb noCab parseEx (diskOf [(str% "d/m.dll", .file [1] true), (str% "e/m.exe", .file [80, 1, 7] true)])
    (str% "d/m.pdb") (str% "A1") = .ok none := by decide
/-- A damaged cabinet makes the search panic. -/
example : findPeForPdb (fun b => if b = [77] then some [] else none) parseEx (diskOf [(str% "d/m.dl_", .file [77] true)])
    (str% "d/m.pdb") (str% "A1") = .panic := by decide

/-! ## C57 -/

/-! ### The directory of a path -/

theorem trimTrail_gap {g : Str} (h : Gap g) : ∀ s : Str, trimTrail (s ++ g) = trimTrail s := by
  induction h with
  | one => exact trimTrail_slash
  | slash t _ ih =>
    intro s
    rw [show s ++ '/' :: t = (s ++ ['/']) ++ t by simp, ih, trimTrail_slash]
  | dot t _ ih =>
    intro s
    rw [show s ++ '/' :: '.' :: t = (s ++ ['/', '.']) ++ t by simp, ih]
    unfold trimTrail
    simp [trimTrailRev]

theorem gap_last {g : Str} (h : Gap g) : g.getLast? = some '/' := by
  induction h with
  | one => rfl
  | slash t _ ih => rw [List.getLast?_cons, ih]; rfl
  | dot t _ ih => rw [List.getLast?_cons, List.getLast?_cons, ih]; rfl

theorem gap_head {g : Str} (h : Gap g) : g.head? = some '/' := by cases h <;> rfl

theorem gap_slash {g : Str} (h : Gap g) : Gap (g ++ ['/']) := by
  induction h with
  | one => exact .slash _ .one
  | slash t _ ih => exact .slash _ ih
  | dot t _ ih => exact .dot _ ih

theorem gap_dot {g : Str} (h : Gap g) : Gap (g ++ ['.', '/']) := by
  induction h with
  | one => exact .dot _ .one
  | slash t _ ih => exact .slash _ ih
  | dot t _ ih => exact .dot _ ih

theorem trimTrail_clean {dir : Str} (h1 : dir.getLast? ≠ some '/') (h2 : ¬ ['/', '.'] <:+ dir) : trimTrail dir = dir := by
  unfold trimTrail
  suffices trimTrailRev dir.reverse = dir.reverse by rw [this, List.reverse_reverse]
  generalize hr : dir.reverse = r
  have hd : dir = r.reverse := by rw [← hr, List.reverse_reverse]
  subst hd
  unfold trimTrailRev
  split
  · simp at h1
  · rename_i t
    exact absurd ⟨t.reverse, by simp⟩ h2
  · rfl

/-- Every directory part ends with a gap. -/
theorem gap_split (n : Nat) : ∀ pre : Str, pre.length ≤ n → pre.getLast? = some '/' →
    Gap pre ∨ ∃ dir gap, pre = dir ++ gap ∧ dir ≠ [] ∧ dir.getLast? ≠ some '/' ∧ ¬ ['/', '.'] <:+ dir ∧ Gap gap := by
  induction n with
  | zero =>
    intro pre h hl
    have : pre = [] := List.length_eq_zero_iff.mp (by omega)
    subst this
    cases hl
  | succ n ih =>
    intro pre h hl
    obtain ⟨s, rfl⟩ := List.getLast?_eq_some_iff.mp hl
    by_cases h0 : s = []
    · subst h0; exact .inl .one
    · by_cases h1 : s.getLast? = some '/'
      · rcases ih s (by simp at h; omega) h1 with hg | ⟨dir, gap, rfl, k1, k2, k3, k4⟩
        · exact .inl (gap_slash hg)
        · exact .inr ⟨dir, gap ++ ['/'], by simp, k1, k2, k3, gap_slash k4⟩
      · by_cases h2 : ['/', '.'] <:+ s
        · obtain ⟨t, rfl⟩ := h2
          rcases ih (t ++ ['/']) (by simp at h ⊢; omega) (by simp) with hg | ⟨dir, gap, e, k1, k2, k3, k4⟩
          · left
            have := gap_dot hg
            simpa using this
          · refine .inr ⟨dir, gap ++ ['.', '/'], ?_, k1, k2, k3, gap_dot k4⟩
            rw [← List.append_assoc, ← e]
            simp
        · exact .inr ⟨s, ['/'], rfl, h0, h1, h2, .one⟩

theorem dirOf_exists {path : Str} (h : Usable path) : ∃ dir, DirOf path dir := by
  rcases h with h | ⟨pre, c, rfl, hp, hc⟩
  · by_cases h1 : path = [] ∨ path.getLast? = some '/'
    · exact ⟨_, .self h h1⟩
    · exact ⟨_, .below h (fun e => h1 (.inl e)) (fun e => h1 (.inr e))⟩
  · rcases hp with rfl | hp
    · exact ⟨_, .bare (by simpa using hc)⟩
    · rcases gap_split _ pre (Nat.le_refl _) hp with hg | ⟨dir, gap, rfl, k1, k2, k3, k4⟩
      · exact ⟨_, .root pre c rfl hg hc⟩
      · exact ⟨_, .inDir dir gap c rfl k1 k2 k3 k4 hc⟩

theorem pop_dirPart {pre c : Str} (hp : DirPart pre) (hc : ProperComp c) :
    pop (pre ++ c) = if isAbs (pre ++ c) ∧ trimTrail pre = [] then ['/'] else trimTrail pre := by
  have hf := fileName_dirPart hp hc
  unfold fileName at hf
  unfold pop Path.parent
  generalize hl : (components (pre ++ c)).getLast? = l at hf
  match l, hf with
  | some (.normal s), _ =>
    simp only [Option.getD_some]
    rw [trimTrail_proper _ _ hc, dropWhile_rev_append _ _ hc.2.1 hp]

theorem setFileName_dirOf {path dir name : Str} (h : DirOf path dir) (hn : ProperComp name) :
    setFileName path name = dir ++ name ∧ DirPart dir := by
  have hpush : ∀ x : Str, x ≠ [] → x.getLast? ≠ some '/' → push x name = x ++ ['/'] ++ name := by
    intro x h1 h2
    unfold push
    rw [isAbs_proper hn, if_neg (by simp), if_neg]
    · simp
    · rintro (h | h)
      · exact h1 (List.getLast?_eq_none_iff.mp h)
      · exact h2 h
  have hpush0 : ∀ x : Str, x = [] ∨ x.getLast? = some '/' → push x name = x ++ name := by
    intro x h
    unfold push
    rw [isAbs_proper hn, if_neg (by simp), if_pos]
    exact h.imp (fun h => by rw [h]; rfl) (fun h => h)
  unfold setFileName
  cases h with
  | bare h =>
    refine ⟨?_, .inl rfl⟩
    have h1 := fileName_proper _ h
    have h2 := pop_dirPart (pre := []) (.inl rfl) h
    rw [List.nil_append] at h2
    have h3 : isAbs path = false := isAbs_proper h
    rw [h1]
    simp only
    rw [h2, h3, if_neg (by simp)]
    exact hpush0 _ (.inl rfl)
  | root gap c e hg hc =>
    refine ⟨?_, .inr rfl⟩
    have hd : DirPart gap := .inr (gap_last hg)
    rw [e, fileName_dirPart hd hc]
    simp only
    have ht := trimTrail_gap hg []
    rw [List.nil_append] at ht
    rw [pop_dirPart hd hc, ht, if_pos]
    · exact hpush0 _ (.inr rfl)
    · refine ⟨?_, rfl⟩
      unfold isAbs
      rw [List.head?_append, gap_head hg]
      rfl
  | inDir dir gap c e h1 h2 h3 hg hc =>
    refine ⟨?_, .inr (by simp)⟩
    have hd : DirPart (dir ++ gap) := .inr (by rw [List.getLast?_append, gap_last hg]; rfl)
    rw [e, fileName_dirPart hd hc]
    simp only
    rw [pop_dirPart hd hc, trimTrail_gap hg, trimTrail_clean h2 h3, if_neg (fun h => h1 h.2)]
    exact hpush _ h1 h2
  | self h h1 =>
    refine ⟨?_, h1⟩
    rw [h]
    exact hpush0 _ h1
  | below h h1 h2 =>
    refine ⟨?_, .inr (by simp)⟩
    rw [h]
    exact hpush _ h1 h2

theorem fileName_proper_of {p n : Str} (h : fileName p = some n) : ProperComp n := by
  unfold fileName at h
  split at h
  · rename_i s hs
    cases h
    exact components_proper p n (List.mem_of_getLast? hs)
  · cases h

section
variable (cab : Cab) (d : Disk) (hd : ∀ q es, d q = some (.dir es) → ∀ e ∈ es, ProperComp e)
include hd

/-- **C57**: the PDB of a PE is read from the first of these that is a file: the recorded path, the file of that name beside the PE, the
same with extension `pd_`, and the file of that name **beside** the current directory (`_partial`: the property asks for the current
directory itself; see the witness). -/
theorem C57_places_partial {cwd path recorded name : Str} {ps : List Str} (hname : fileName (slashes recorded) = some name)
    (hr : ∃ pre, DirPart pre ∧ slashes recorded = pre ++ name) (h : Places cwd path (slashes recorded) name ps) :
    (∀ before p after, ps = before ++ p :: after → (∀ q ∈ before, ¬ IsFile d q) → IsFile d p →
      (∀ b, osSpecificTryToFindPdb cab d cwd path recorded = .ok (some b, name) ↔ PathHolds cab d p b) ∧
      ((¬ ∃ b, PathHolds cab d p b) → osSpecificTryToFindPdb cab d cwd path recorded = .panic)) ∧
    ((∀ q ∈ ps, ¬ IsFile d q) → osSpecificTryToFindPdb cab d cwd path recorded = .ok (none, name)) := by
  obtain ⟨dir, cdir, stem, h1, h2, h3⟩ := h
  have hn := fileName_proper_of hname
  obtain ⟨s1, p1⟩ := setFileName_dirOf h1 hn
  obtain ⟨s2, p2⟩ := setFileName_dirOf h2 hn
  have s3 : setExtension (dir ++ name) (str% "pd_") = dir ++ (stem ++ str% ".pd_") := baseName_set h3 p1 hn (by decide)
  obtain ⟨hs, hs'⟩ := baseName_parts h3 hn
  have hn3 : ProperComp (stem ++ str% ".pd_") := proper_stem hs hs' (x := str% "pd_") (by decide) (by decide)
  have hform : osSpecificTryToFindPdb cab d cwd path recorded =
      match [slashes recorded, dir ++ name, dir ++ (stem ++ str% ".pd_"), cdir ++ name].find? d.isFile with
      | some p => (Files.readFile cab d p).map (fun b => (some b, name))
      | none => .ok (none, name) := by
    unfold osSpecificTryToFindPdb tryToFindPdb
    rw [show (recorded.map fun c => if c = '\\' then '/' else c) = slashes recorded from rfl]
    simp only [hname, s1, s2, s3, List.find?_cons, List.find?_nil]
    cases e1 : d.isFile (slashes recorded) with
    | true => simp
    | false =>
      simp only [Bool.false_eq_true, if_false]
      cases e2 : d.isFile (dir ++ name) with
      | true => simp only [if_true]; cases Files.readFile cab d (dir ++ name) <;> rfl
      | false =>
        simp only [Bool.false_eq_true, if_false]
        cases e3 : d.isFile (dir ++ (stem ++ str% ".pd_")) with
        | true => simp only [if_true]; cases Files.readFile cab d (dir ++ (stem ++ str% ".pd_")) <;> rfl
        | false =>
          simp only [Bool.false_eq_true, if_false]
          cases e4 : d.isFile (cdir ++ name) with
          | true => simp only [if_true]; cases Files.readFile cab d (cdir ++ name) <;> rfl
          | false => simp only [Bool.false_eq_true, if_false, Res.map_ok]
  rw [hform]
  constructor
  · intro before p after e hb hp
    have hfind : [slashes recorded, dir ++ name, dir ++ (stem ++ str% ".pd_"), cdir ++ name].find? d.isFile = some p := by
      rw [e, List.find?_append, List.find?_cons_of_pos (isFile_iff.mpr hp), Option.or_eq_some_iff]
      refine .inr ⟨?_, rfl⟩
      rw [List.find?_eq_none]
      intro q hq h
      exact hb q hq (isFile_iff.mp h)
    rw [hfind]
    simp only
    have hmem : p ∈ [slashes recorded, dir ++ name, dir ++ (stem ++ str% ".pd_"), cdir ++ name] := by rw [e]; simp
    obtain ⟨q, n, hq, hqn, e'⟩ : ∃ q n, DirPart q ∧ ProperComp n ∧ p = q ++ n := by
      simp only [List.mem_cons, List.not_mem_nil, or_false] at hmem
      rcases hmem with rfl | rfl | rfl | rfl
      · obtain ⟨pre, hpre, e⟩ := hr
        exact ⟨pre, name, hpre, hn, e⟩
      · exact ⟨_, _, p1, hn, rfl⟩
      · exact ⟨_, _, p1, hn3, rfl⟩
      · exact ⟨_, _, p2, hn, rfl⟩
    have hread := C77_read cab d q n hq hqn hd
    rw [← e'] at hread
    constructor
    · intro b
      rw [← hread.1 b]
      cases Files.readFile cab d p <;> simp
    · intro h
      rw [hread.2 (fun ⟨b, hb⟩ => h ⟨b, (hread.1 b).mp hb⟩)]
      rfl
  · intro hall
    have : [slashes recorded, dir ++ name, dir ++ (stem ++ str% ".pd_"), cdir ++ name].find? d.isFile = none := by
      rw [List.find?_eq_none]
      intro q hq h
      exact hall q hq (isFile_iff.mp h)
    rw [this]

end
/-- **C57 is false**: `set_file_name` replaces the last component of the current directory, so a PDB in the current directory
is not found and one in its parent is. -/
theorem C57_cwd_witness :
    osSpecificTryToFindPdb noCab (diskOf [(str% "/home/u/m.pdb", .file [1] true)]) (str% "/home/u") (str% "/x/m.dll")
      (str% "C:\\x\\m.pdb") = .ok (none, str% "m.pdb") ∧
    osSpecificTryToFindPdb noCab (diskOf [(str% "/home/m.pdb", .file [1] true)]) (str% "/home/u") (str% "/x/m.dll")
      (str% "C:\\x\\m.pdb") = .ok (some [1], str% "m.pdb") := by decide

/-- A compressed PDB beside the PE. -/
example : osSpecificTryToFindPdb noCab (diskOf [(str% "/x/m.pd_", .file [5] true)]) (str% "/home/u") (str% "/x/m.dll")
    (str% "C:\\x\\m.pdb") = .ok (some [5], str% "m.pdb") := by decide
example : fileName (slashes (str% "C:\\x\\m.pdb")) = some (str% "m.pdb") ∧ renderPath true [str% "x", str% "m.dll"] = str% "/x/m.dll" := by
  decide

/-! ## C58 -/

/-- No network. -/
def noNet : Cache.Net where
  validUrl := fun _ => true
  arrivals := fun _ => []
  get := fun _ => none
  mkdirs := fun _ => true
  create := fun _ => true
  room := fun _ => 1000000
  capacity := 8192
  cab := noCab

/-- **C58 is false**: a PDB found on the disk is used whatever its own debug id is (`pdbId` stands for any way of reading the
debug id of a PDB). -/
theorem C58_unchecked_witness (pdbId : Bytes → Str) (b : Bytes) (hb : pdbId b ≠ str% "A1") :
    ∃ (d : Disk) (pe : Pe) (buf : Bytes) (name : Str),
      (getPePdbBuf noNet parseEx (str% "/w") (str% "/x/m.dll") [80, 1] none { disk := d, log := [] }).1 =
        .ok (some (pe, buf, name)) ∧ pdbId buf ≠ pe.debugId := by
  refine ⟨fun p => if p = str% "/x/m.pdb" then some (.file b true) else none,
    { debugId := str% "A1", debugFileName := some (str% "C:\\x\\m.pdb") }, b, str% "m.pdb", rfl, hb⟩

/-- **C58 (partial), C81**: which PDB is taken for a PE and which state is left, both directions; the search panics in every other case.
Missing of C58: that the PDB has the debug id of the PE. -/
theorem C58_source_partial (net : Cache.Net) (parse : ParsePe) (cwd path : Str) (buf : Bytes)
    (servers : Option (List Cache.Server)) (w : Cache.World) {pe : Pe} (hpe : parse buf = some pe) (hpath : Usable path) (hcwd : Usable cwd)
    (hrec : ∀ r, pe.debugFileName = some r → Usable (slashes r)) (hi : ProperComp pe.debugId)
    (hd : ∀ q es, w.disk q = some (.dir es) → ∀ e ∈ es, ProperComp e)
    (hroom : ∀ u st raw p, net.get u = some (st, raw) → raw.length ≤ net.room p) (har : ∀ js, ∀ j ∈ net.arrivals js, j ∈ js) :
    (∀ x w', getPePdbBuf net parse cwd path buf servers w = (.ok x, w') ↔
      ∃ y, PdbFor net cwd path pe.debugId servers w pe.debugFileName y w' ∧ x = y.map fun y => (pe, y.1, y.2)) ∧
    ((¬ ∃ y w', PdbFor net cwd path pe.debugId servers w pe.debugFileName y w') →
      (getPePdbBuf net parse cwd path buf servers w).1 = .panic) := by
  have hcomplete : ∀ y w', PdbFor net cwd path pe.debugId servers w pe.debugFileName y w' →
      getPePdbBuf net parse cwd path buf servers w = (.ok (y.map fun y => (pe, y.1, y.2)), w') := by
    intro y w' h
    unfold getPePdbBuf
    simp only [hpe]
    generalize hr : pe.debugFileName = rec at h
    cases h with
    | unnamed => rfl
    | noFile r h1 =>
      have : osSpecificTryToFindPdb net.cab w.disk cwd path r = .ok (none, []) := by
        unfold osSpecificTryToFindPdb
        rw [show (r.map fun c => if c = '\\' then '/' else c) = slashes r from rfl]
        simp only [h1]
      simp only [this, if_true]
      rfl
    | onDisk r name ps before p after b h1 h2 h3 h4 h5 h6 =>
      have hus : ∃ pre, DirPart pre ∧ slashes r = pre ++ name := by
        rcases hrec r hr with h | ⟨pre, c, e, hp, hc⟩
        · rw [h] at h1; cases h1
        · rw [e, fileName_dirPart hp hc] at h1
          cases h1
          exact ⟨pre, hp, e⟩
      have := (((C57_places_partial net.cab w.disk hd h1 hus h2).1 before p after h3 h4 h5).1 b).mpr h6
      simp only [this, if_neg (fileName_proper_of h1).1]
      rfl
    | searched r name ps x _ h1 h2 h3 h4 =>
      have hus : ∃ pre, DirPart pre ∧ slashes r = pre ++ name := by
        rcases hrec r hr with h | ⟨pre, c, e, hp, hc⟩
        · rw [h] at h1; cases h1
        · rw [e, fileName_dirPart hp hc] at h1
          cases h1
          exact ⟨pre, hp, e⟩
      have := (C57_places_partial net.cab w.disk hd h1 hus h2).2 h3
      have hs := ((Cache.C80_search_partial net name pe.debugId servers w (fileName_proper_of h1) hi hd hroom har).1 x w').mpr h4
      simp only [this, if_neg (fileName_proper_of h1).1, hs, Res.map_ok]
      cases x <;> rfl
  have hsound : (∃ y w', PdbFor net cwd path pe.debugId servers w pe.debugFileName y w') ∨
      (getPePdbBuf net parse cwd path buf servers w).1 = .panic := by
    cases hr : pe.debugFileName with
    | none => exact .inl ⟨_, _, .unnamed⟩
    | some r =>
      cases hf : fileName (slashes r) with
      | none => exact .inl ⟨_, _, .noFile r hf⟩
      | some name =>
        have hus : ∃ pre, DirPart pre ∧ slashes r = pre ++ name := by
          rcases hrec r hr with h | ⟨pre, c, e, hp, hc⟩
          · rw [h] at hf; cases hf
          · rw [e, fileName_dirPart hp hc] at hf
            cases hf
            exact ⟨pre, hp, e⟩
        obtain ⟨dir, h1⟩ := dirOf_exists hpath
        obtain ⟨cdir, h2⟩ := dirOf_exists hcwd
        obtain ⟨stem, h3⟩ := baseName_exists name
        have hpl : Places cwd path (slashes r) name _ := .mk dir cdir stem h1 h2 h3
        generalize [slashes r, dir ++ name, dir ++ (stem ++ str% ".pd_"), cdir ++ name] = ps at hpl
        have h57 := C57_places_partial net.cab w.disk hd hf hus hpl
        have hn := fileName_proper_of hf
        cases hfind : ps.find? w.disk.isFile with
        | some p =>
          obtain ⟨hp, before, after, e, hb⟩ := List.find?_eq_some_iff_append.mp hfind
          have hb' : ∀ q ∈ before, ¬ IsFile w.disk q := by
            intro q hq h
            have := hb q hq
            rw [isFile_iff.mpr h] at this
            cases this
          by_cases hx : ∃ b, PathHolds net.cab w.disk p b
          · obtain ⟨b, hx⟩ := hx
            exact .inl ⟨_, _, .onDisk r name ps before p after b hf hpl e hb' (isFile_iff.mp hp) hx⟩
          · right
            have := (h57.1 before p after e hb' (isFile_iff.mp hp)).2 hx
            unfold getPePdbBuf
            simp only [hpe, hr, this]
        | none =>
          have hno : ∀ q ∈ ps, ¬ IsFile w.disk q := by
            intro q hq h
            have := List.find?_eq_none.mp hfind q hq
            exact this (isFile_iff.mpr h)
          obtain ⟨hs1, hs2⟩ := Cache.C80_search_partial net name pe.debugId servers w hn hi hd hroom har
          by_cases hx : ∃ x w', Cache.Search net name pe.debugId servers w x w'
          · obtain ⟨x, w', hx⟩ := hx
            exact .inl ⟨_, _, .searched r name ps x w' hf hpl hno hx⟩
          · right
            unfold getPePdbBuf
            simp only [hpe, hr, h57.2 hno, if_neg hn.1, hs2 hx, Res.map_panic]
  refine ⟨fun x w' => ⟨fun h => ?_, ?_⟩, fun h => hsound.resolve_left h⟩
  · rcases hsound with ⟨y, w'', hy⟩ | hy
    · have := hcomplete y w'' hy
      rw [h] at this
      cases this
      exact ⟨y, hy, rfl⟩
    · rw [h] at hy
      cases hy
  · rintro ⟨y, hy, rfl⟩
    exact hcomplete y w' hy

/-- The hypothesis of `C58_source_partial` can be met. -/
example : (getPePdbBuf noNet parseEx (str% "/w") (str% "/x/m.dll") [80, 1] none
    { disk := diskOf [(str% "/x/m.pdb", .file [9] true)], log := [] }).1 =
    .ok (some ({ debugId := str% "A1", debugFileName := some (str% "C:\\x\\m.pdb") }, [9], str% "m.pdb")) := rfl

end WinUtils
end DumpSyms
