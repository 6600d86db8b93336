import Verif.Proof.WinSearch
import Verif.Props.WinUtils
/-!
# C107: what is read from a path on Windows; C108: finding the PE of a PDB there; C109: finding the PDB of a PE there
-/
namespace DumpSyms
namespace WinHost
open WinPath
open WinUtils (peExts GoodExt goodExts fixExtension baseName_set baseName_exists baseName_unique isFile_iff diskOf noCab parseEx)

/-! ### Names with extensions -/

theorem winProper_stem {stem e x : Str} (hs : stem ≠ []) (h : WinProper (stem ++ '.' :: e)) (hx : x ≠ []) (hx' : NoSep x) :
    WinProper (stem ++ '.' :: x) := by
  have h1 : ProperComp (stem ++ '.' :: x) := proper_stem hs (fun h' => h.2.1.1 (by simp [h'])) hx hx'.1
  refine ⟨h1.1, ⟨h1.2.1, ?_⟩, h1.2.2.1, h1.2.2.2, not_drive_append h.2.2.2.2⟩
  have := h.2.1.2
  simp only [List.mem_append, List.mem_cons, not_or] at this ⊢
  exact ⟨this.1, by decide, hx'.2⟩

theorem bare_not_drive {name x : Str} (h : ¬ DriveLike name) : ¬ DriveLike (name ++ '.' :: x) := by
  rintro ⟨d, r, e, hd⟩
  match name with
  | [] => simp only [List.nil_append, List.cons.injEq] at e; rw [← e.1] at hd; exact absurd hd (by decide)
  | [y] => simp only [List.cons_append, List.nil_append, List.cons.injEq] at e; exact absurd e.2.1 (by decide)
  | y :: z :: s =>
    simp only [List.cons_append, List.cons.injEq] at e
    exact h ⟨y, s, by simp [e.2.1], by rw [e.1]; exact hd⟩

theorem winProper_base {name stem x : Str} (h : BaseName name stem) (hn : WinProper name) (hx : x ≠ []) (hx' : NoSep x) :
    WinProper (stem ++ '.' :: x) := by
  cases h with
  | ext _ e h1 h2 => exact winProper_stem h1 hn hx hx'
  | bare _ k =>
    have h1 : ProperComp (name ++ '.' :: x) := proper_stem hn.1 hn.2.1.1 hx hx'.1
    refine ⟨h1.1, ⟨h1.2.1, ?_⟩, h1.2.2.1, h1.2.2.2, bare_not_drive hn.2.2.2.2⟩
    simp only [List.mem_append, List.mem_cons, not_or]
    exact ⟨hn.2.1.2, by decide, hx'.2⟩

/-- The name of the file in a cabinet depends on the name of the cabinet only. -/
theorem getCorrectedPath_dir {pre n : Str} (hp : WinDirPart pre) (hn : WinProper n) :
    getCorrectedPath (pre ++ n) = (Utils.getCorrectedPath n).map (pre ++ ·) := by
  obtain ⟨stem, hb⟩ := baseName_exists n
  have hext : WinPath.extension (pre ++ n) = Path.extension n := by
    unfold WinPath.extension Path.extension
    rw [fileName_dir hp hn, fileName_proper _ hn.proper]
    rfl
  have hset : ∀ x, x ≠ [] → WinPath.setExtension (pre ++ n) x = pre ++ Path.setExtension n x := by
    intro x hx
    rw [setExtension_dir hb hp hn hx]
    have := baseName_set hb (pre := []) (.inl rfl) hn.proper hx
    rw [List.nil_append, List.nil_append] at this
    rw [this]
  unfold getCorrectedPath Utils.getCorrectedPath
  rw [hext]
  cases Path.extension n with
  | none => rfl
  | some e =>
    simp only
    rw [hset _ (by decide), hset _ (by decide), hset _ (by decide), hset _ (by decide)]
    split
    · rfl
    · split
      · rfl
      · split
        · rfl
        · split <;> rfl

theorem findEntry_iff (w : Str) (l : List (Str × Option Bytes)) (e : Str × Option Bytes) :
    WinHost.findEntry w l = .ok (some e) ↔ ∃ before after, l = before ++ e :: after ∧ WinPath.fileName e.1 = some w ∧
      ∀ o ∈ before, ∃ n, WinPath.fileName o.1 = some n ∧ n ≠ w := by
  induction l with
  | nil => simp [WinHost.findEntry]
  | cons o l ih =>
    unfold WinHost.findEntry
    cases ho : WinPath.fileName o.1 with
    | none =>
      simp only
      constructor
      · intro h; cases h
      · rintro ⟨b, a, h1, h2, h3⟩
        cases b with
        | nil => cases h1; rw [ho] at h2; cases h2
        | cons x b => cases h1; obtain ⟨n, h4, _⟩ := h3 o (by simp); rw [ho] at h4; cases h4
    | some n =>
      simp only
      by_cases hn : n = w
      · rw [if_pos hn]
        constructor
        · intro h; cases h; exact ⟨[], l, rfl, by rw [ho, hn], by simp⟩
        · rintro ⟨b, a, h1, h2, h3⟩
          cases b with
          | nil => cases h1; rfl
          | cons x b =>
            cases h1
            obtain ⟨m, h4, h5⟩ := h3 o (by simp)
            rw [ho] at h4; cases h4; exact absurd hn h5
      · rw [if_neg hn, ih]
        constructor
        · rintro ⟨b, a, rfl, h2, h3⟩
          refine ⟨o :: b, a, rfl, h2, ?_⟩
          intro x hx
          rcases List.mem_cons.mp hx with rfl | hx
          · exact ⟨n, ho, hn⟩
          · exact h3 x hx
        · rintro ⟨b, a, h1, h2, h3⟩
          cases b with
          | nil => cases h1; rw [ho] at h2; cases h2; exact absurd rfl hn
          | cons x b =>
            cases h1
            exact ⟨b, a, rfl, h2, fun y hy => h3 y (by simp [hy])⟩

theorem readCabinet_iff (cab : Cab) (raw b : Bytes) (pre n : Str) (hp : WinDirPart pre) (hc : WinProper n) :
    readCabinet cab raw (pre ++ n) = .ok (some b) ↔ FileHolds cab n raw b := by
  unfold readCabinet
  cases hcab : cab raw with
  | none =>
    simp only
    constructor
    · intro h; cases h; exact .plain hcab
    · intro h
      cases h with
      | plain => rfl
      | packed stem e x entry before after b h => rw [hcab] at h; cases h
  | some es =>
    simp only
    rw [getCorrectedPath_dir hp hc]
    rcases split_last_dot n with hd | ⟨stem, e, rfl, he⟩
    · have hext : Path.extension n = none := by
        unfold Path.extension; rw [fileName_proper _ hc.proper]; simp only [rsplitDot_none n hd]
      unfold Utils.getCorrectedPath
      rw [hext]
      simp only [Res.map_panic]
      constructor
      · intro h; cases h
      · intro h
        cases h with
        | plain h => rw [hcab] at h; cases h
        | packed stem e x entry before after b h1 h2 => exact absurd (by rw [h2]; simp) hd
    · by_cases hs : stem = []
      · have hext : Path.extension (stem ++ '.' :: e) = none := by
          unfold Path.extension; rw [fileName_proper _ hc.proper]; simp only [rsplitDot_append stem e he, if_pos hs]
        unfold Utils.getCorrectedPath
        rw [hext]
        simp only [Res.map_panic]
        constructor
        · intro h; cases h
        · intro h
          cases h with
          | plain h => rw [hcab] at h; cases h
          | packed stem' e' x entry before after b h1 h2 h3 h4 =>
            have := congrArg Path.rsplitDot h2
            rw [rsplitDot_append _ _ he, rsplitDot_append _ _ h4] at this
            cases this; exact absurd hs h3
      · obtain ⟨x, hx, hux, hcp, hxs⟩ := expanded_iff [] stem e (.inl rfl) hs he hc.proper
        rw [List.nil_append, List.nil_append] at hcp
        have hpx : WinProper (stem ++ '.' :: x) := by
          cases hx with
          | two a b t new h =>
            simp only [List.mem_cons, Prod.mk.injEq, List.not_mem_nil, or_false] at h
            rcases h with ⟨_, _, rfl⟩ | ⟨_, _, rfl⟩ | ⟨_, _, rfl⟩ | ⟨_, _, rfl⟩ <;>
              exact winProper_stem hs hc (by decide) ⟨by decide, by decide⟩
          | same => exact hc
        rw [hcp]
        simp only [Res.map_ok, fileName_dir hp hpx]
        have hmain : (∃ entry, findEntry (stem ++ '.' :: x) es = .ok (some (entry, some b))) ↔
            FileHolds cab (stem ++ '.' :: e) raw b := by
          constructor
          · rintro ⟨entry, h⟩
            obtain ⟨before, after, h1, h2, h3⟩ := (findEntry_iff _ _ _).mp h
            exact .packed stem e x entry before after b (h1 ▸ hcab) rfl hs he hx h2 h3
          · intro h
            cases h with
            | plain h => rw [hcab] at h; cases h
            | packed stem' e' x' entry before after b h1 h2 h3 h4 h5 h6 h7 =>
              have := congrArg Path.rsplitDot h2
              rw [rsplitDot_append _ _ he, rsplitDot_append _ _ h4] at this
              cases this
              cases hux _ h5
              rw [hcab] at h1; cases h1
              exact ⟨entry, (findEntry_iff _ _ _).mpr ⟨before, after, rfl, h6, h7⟩⟩
        rw [← hmain]
        cases hf : findEntry (stem ++ '.' :: x) es with
        | ok r =>
          cases r with
          | none => simp
          | some r =>
            obtain ⟨entry, c⟩ := r
            simp
        | err m => simp
        | panic => simp

theorem windir_unique {pre pre' n n' : Str} (h : pre ++ n = pre' ++ n') (hp : WinDirPart pre) (hp' : WinDirPart pre') (hn : WinProper n)
    (hn' : WinProper n') : pre = pre' ∧ n = n' := by
  have h1 := fileName_dir hp hn
  rw [h, fileName_dir hp' hn'] at h1
  cases h1
  exact ⟨List.append_cancel_right h, rfl⟩

/-- **C107, files.** On Windows a file is read as its bytes, and if these are a cabinet, as the contents of its first entry that has the file's name
with the uncompressed extension; in every other case the run stops. -/
theorem C107_file (cab : Cab) (d : Disk) {pre name : Str} (hp : WinDirPart pre) (hn : WinProper name) (hdir : ∀ es, d (pre ++ name) ≠ some (.dir es)) :
    (∀ b, readFile cab d (pre ++ name) = .ok b ↔ Holds cab d (pre ++ name) b) ∧
    ((¬ ∃ b, Holds cab d (pre ++ name) b) → readFile cab d (pre ++ name) = .panic) := by
  have key : ∀ raw, d (pre ++ name) = some (.file raw true) → ∀ b, Holds cab d (pre ++ name) b ↔ readCabinet cab raw (pre ++ name) = .ok (some b) := by
    intro raw hraw b
    rw [readCabinet_iff cab raw b pre name hp hn]
    constructor
    · rintro ⟨pre', n', raw', e, hp', hn', h1, h2⟩
      obtain ⟨rfl, rfl⟩ := windir_unique e hp hp' hn hn'
      rw [hraw] at h1; cases h1
      exact h2
    · intro h
      exact ⟨pre, name, raw, rfl, hp, hn, hraw, h⟩
  have none_of : (∀ raw, d (pre ++ name) ≠ some (.file raw true)) → ∀ b, ¬ Holds cab d (pre ++ name) b := by
    rintro h b ⟨_, _, raw, _, _, _, h1, _⟩
    exact h raw h1
  unfold readFile
  cases hd : d (pre ++ name) with
  | none =>
    refine ⟨fun b => ⟨(fun h => by cases h), fun h => absurd h (none_of (by rw [hd]; simp) b)⟩, fun _ => rfl⟩
  | some node =>
    cases node with
    | dir es => exact absurd hd (hdir es)
    | file raw r =>
      simp only [hd]
      cases r with
      | false => exact ⟨fun b => ⟨(fun h => by cases h), fun h => absurd h (none_of (by rw [hd]; simp) b)⟩, fun _ => rfl⟩
      | true =>
        simp only
        refine ⟨fun b => ?_, fun h => ?_⟩
        · rw [key raw hd b]
          cases readCabinet cab raw (pre ++ name) with
          | ok x => cases x <;> simp
          | err m => simp
          | panic => simp
        · cases hc : readCabinet cab raw (pre ++ name) with
          | ok x =>
            cases x with
            | none => rfl
            | some b => exact absurd ⟨b, (key raw hd b).mpr hc⟩ h
          | err m => rfl
          | panic => rfl

theorem push_inside {a s name : Str} (h : WinAnchored a s) (hp : parsePrefix name = none) (hr : hasRoot name = false) :
    Inside (a ++ s) name (push (a ++ s) name) := by
  have hv := anchored_not_verbatim h
  unfold Inside push
  rw [hv]
  simp only [isAbs, hr, hp, Bool.false_and, Option.isSome_none, Bool.or_false, Bool.false_eq_true, if_false]
  by_cases hs : NoSepAfter (a ++ s)
  · rw [needSep_iff.mpr hs]
    exact .inl ⟨hs, by simp⟩
  · have := mt needSep_iff.mp hs
    rw [Bool.not_eq_false] at this
    rw [this]
    exact .inr ⟨hs, by simp⟩

theorem inside_unique {dir name p q : Str} (h : Inside dir name p) (h' : Inside dir name q) : p = q := by
  rcases h with ⟨h1, rfl⟩ | ⟨h1, rfl⟩ <;> rcases h' with ⟨h2, rfl⟩ | ⟨h2, rfl⟩
  · rfl
  · exact absurd h1 h2
  · exact absurd h2 h1
  · rfl

/-- The `DWARF` directory of a bundle. -/
theorem dwarf_anchored {a s p : Str} (h : WinAnchored a s) (hp : Inside (a ++ s) (str% "Contents/Resources/DWARF") p) :
    ∃ s', p = a ++ s' ∧ WinAnchored a s' ∧ ¬ EndsSep s' := by
  have hend : ∀ t : Str, ¬ EndsSep (t ++ str% "Contents/Resources/DWARF") := by
    rintro t (h | ⟨u, x, h, hx⟩)
    · simp at h
    · have : t ++ str% "Contents/Resources/DWARF" = (t ++ str% "Contents/Resources/DWAR") ++ ['F'] := by simp
      rw [this] at h
      rw [← (snoc_inj h).2] at hx
      cases hx
  have hstart : ∀ t : Str, StartsSep (t ++ str% "Contents/Resources/DWARF") → StartsSep t := by
    rintro t ⟨x, r, h, hx⟩
    cases t with
    | nil => injection h with h; rw [← h] at hx; cases hx
    | cons y t => injection h with h; exact ⟨y, t, rfl, by rw [h]; exact hx⟩
  rcases hp with ⟨h1, rfl⟩ | ⟨h1, rfl⟩
  · refine ⟨s ++ str% "Contents/Resources/DWARF", by simp, anchored_change h ?_ (hstart s), hend s⟩
    rintro ⟨d, r, e, hd⟩
    match s with
    | [] => simp at e
    | [y] =>
      simp at e
    | y :: z :: t =>
      simp only [List.cons_append, List.cons.injEq] at e
      exact ⟨y, t, by rw [e.2.1], by rw [e.1]; exact hd⟩
  · refine ⟨s ++ '\\' :: str% "Contents/Resources/DWARF", by simp, anchored_change h ?_ ?_, ?_⟩
    · rintro ⟨d, r, e, hd⟩
      match s with
      | [] => simp at e
      | [y] => simp at e
      | y :: z :: t =>
        simp only [List.cons_append, List.cons.injEq] at e
        exact ⟨y, t, by rw [e.2.1], by rw [e.1]; exact hd⟩
    · rintro ⟨x, r, e, hx⟩
      cases s with
      | nil =>
        rw [List.append_nil] at h1
        exact absurd (anchor_noSepAfter h) h1
      | cons y t => injection e with e; exact ⟨y, t, rfl, by rw [e]; exact hx⟩
    · rw [show s ++ '\\' :: str% "Contents/Resources/DWARF" = (s ++ ['\\']) ++ str% "Contents/Resources/DWARF" by simp]
      exact hend _

/-- **C107, bundles.** On Windows a directory is read as the only file of its `DWARF` directory; in every other case the run stops. -/
theorem C107_bundle (cab : Cab) (disk : Disk) {a s : Str} (h : WinAnchored a s) {es : List Str} (hdir : disk (a ++ s) = some (.dir es))
    (hd : ∀ q es, disk q = some (.dir es) → ∀ e ∈ es, WinProper e) :
    (∀ b, readFile cab disk (a ++ s) = .ok b ↔ BundleHolds cab disk (a ++ s) b) ∧
    ((¬ ∃ b, BundleHolds cab disk (a ++ s) b) → readFile cab disk (a ++ s) = .panic) := by
  have hpush := push_inside h (name := str% "Contents/Resources/DWARF") (by decide) (by decide)
  generalize hD : push (a ++ s) (str% "Contents/Resources/DWARF") = dwarf at hpush
  obtain ⟨s', rfl, ha', he'⟩ := dwarf_anchored h hpush
  have hnone : (∀ e, disk (a ++ s') ≠ some (.dir [e])) → ¬ ∃ b, BundleHolds cab disk (a ++ s) b := by
    rintro hno ⟨b, dwarf, e, p, h1, h2, _⟩
    rw [inside_unique h1 hpush] at h2
    exact hno e h2
  by_cases hone : ∃ e, disk (a ++ s') = some (.dir [e])
  · obtain ⟨e, he⟩ := hone
    have hpe := hd _ _ he e (by simp)
    have hin : Inside (a ++ s') e (a ++ s' ++ '\\' :: e) := .inr ⟨anchored_not_after ha' he', rfl⟩
    have hpe' : push (a ++ s') e = a ++ s' ++ '\\' :: e := by
      have := ((push_names (dir := a ++ s') (cs := [e]) (by simp) (by simpa using hpe)).1 (anchored_not_verbatim ha')).2 (anchored_not_after ha' he')
      exact this
    have hax : WinAnchored a (s' ++ ['\\']) := by
      have hs0 : s' ≠ [] := fun h => he' (.inl h)
      refine anchored_change ha' ?_ ?_
      · rintro ⟨x, r, e, hx⟩
        match s' with
        | [] => exact absurd rfl hs0
        | [y] => simp at e
        | y :: z :: t =>
          simp only [List.cons_append, List.cons.injEq] at e
          exact ⟨y, t, by rw [e.2.1], by rw [e.1]; exact hx⟩
      · rintro ⟨x, r, e, hx⟩
        cases s' with
        | nil => exact absurd rfl hs0
        | cons y t => injection e with e; exact ⟨y, t, rfl, by rw [e]; exact hx⟩
    have hdp : WinDirPart (a ++ s' ++ ['\\']) := ⟨a, s' ++ ['\\'], by simp, hax, .inr ⟨s', '\\', rfl, rfl⟩⟩
    have hpath : a ++ s' ++ '\\' :: e = (a ++ s' ++ ['\\']) ++ e := by simp
    have hiff : ∀ b, BundleHolds cab disk (a ++ s) b ↔ Holds cab disk (a ++ s' ++ '\\' :: e) b := by
      intro b
      constructor
      · rintro ⟨dwarf, e1, p, h1, h2, h3, h4⟩
        rw [inside_unique h1 hpush] at h2 h3
        rw [he] at h2
        cases h2
        rw [inside_unique hin h3]
        exact h4
      · intro h
        exact ⟨_, e, _, hpush, he, hin, h⟩
    by_cases hsub : ∃ n, disk (a ++ s' ++ '\\' :: e) = some (.dir n)
    · obtain ⟨n, hsub⟩ := hsub
      have hno : ∀ b, ¬ BundleHolds cab disk (a ++ s) b := by
        intro b hb
        obtain ⟨_, _, raw, _, _, _, h, _⟩ := (hiff b).mp hb
        rw [hsub] at h
        cases h
      have hpan : readFile cab disk (a ++ s) = .panic := by
        unfold readFile macBundle
        simp only [hdir, hD, he, hpe', hsub]
      exact ⟨fun b => ⟨(fun h => by rw [hpan] at h; cases h), fun h => absurd h (hno b)⟩, fun _ => hpan⟩
    · have heq : readFile cab disk (a ++ s) = readFile cab disk (a ++ s' ++ '\\' :: e) := by
        cases hc : disk (a ++ s' ++ '\\' :: e) with
        | none =>
          unfold readFile macBundle
          simp only [hdir, hD, he, hpe', hc]
        | some node =>
          cases node with
          | dir n => exact absurd ⟨n, hc⟩ hsub
          | file raw r =>
            unfold readFile macBundle
            simp only [hdir, hD, he, hpe', hc]
      have hf := C107_file cab disk hdp hpe (by rw [← hpath]; exact fun n h => hsub ⟨n, h⟩)
      rw [← hpath] at hf
      rw [heq]
      refine ⟨fun b => (hf.1 b).trans (hiff b).symm, fun h => hf.2 (fun ⟨b, hb⟩ => h ⟨b, (hiff b).mpr hb⟩)⟩
  · have hpan : readFile cab disk (a ++ s) = .panic := by
      unfold readFile macBundle
      simp only [hdir, hD]
      split
      · rename_i p hp
        split at hp
        · rename_i e he; exact absurd ⟨e, he⟩ hone
        · cases hp
      · rfl
    have hno := hnone (fun e he => hone ⟨e, he⟩)
    exact ⟨fun b => ⟨(fun h => by rw [hpan] at h; cases h), fun h => absurd ⟨b, h⟩ hno⟩, fun _ => hpan⟩

/-! ## C108 -/

theorem goodExt_noSep {x : Str × Str} (h : x ∈ peExts) : NoSep x.1 ∧ NoSep x.2 := by
  revert x
  unfold NoSep
  decide

section
variable (cab : Cab) (parse : WinUtils.ParsePe) (d : Disk) (id : Str)

/-- One round of the loop. -/
theorem findLoop_step {pre name stem : Str} (hp : WinDirPart pre) (hn : WinProper name) (hb : BaseName name stem) {x : Str × Str}
    (hx : x ∈ peExts) (exts : List Str) :
    (NoPe cab parse d id (pre ++ (stem ++ '.' :: x.1)) → ∃ n', WinProper n' ∧ BaseName n' stem ∧
      findLoop cab parse d id (pre ++ name) (x.1 :: exts) = findLoop cab parse d id (pre ++ n') exts) ∧
    (∀ buf, IsPe cab parse d id (pre ++ (stem ++ '.' :: x.1)) buf →
      findLoop cab parse d id (pre ++ name) (x.1 :: exts) = .ok (some (stem ++ '.' :: x.2, buf))) ∧
    (NoPe cab parse d id (pre ++ (stem ++ '.' :: x.1)) ∨ (∃ buf, IsPe cab parse d id (pre ++ (stem ++ '.' :: x.1)) buf) ∨
      findLoop cab parse d id (pre ++ name) (x.1 :: exts) = .panic) := by
  obtain ⟨h1, h2, h3, h4, h5, h6, h7⟩ := goodExts x hx
  obtain ⟨s1, s2⟩ := goodExt_noSep hx
  have hs : stem ≠ [] := (WinUtils.baseName_parts hb hn.proper).1
  have hc1 : WinProper (stem ++ '.' :: x.1) := winProper_base hb hn h1 s1
  have hc2 : WinProper (stem ++ '.' :: x.2) := winProper_base hb hn h4 s2
  have hb1 : BaseName (stem ++ '.' :: x.1) stem := .ext _ _ hs h2
  have hb2 : BaseName (stem ++ '.' :: x.2) stem := .ext _ _ hs h5
  have hset : (if x.1.getLast? = some '_' then WinPath.setExtension (pre ++ (stem ++ '.' :: x.1)) (fixExtension x.1)
      else pre ++ (stem ++ '.' :: x.1)) = pre ++ (stem ++ '.' :: x.2) := by
    by_cases hl : x.1.getLast? = some '_'
    · rw [if_pos hl] at h7 ⊢
      rw [← h7]
      exact setExtension_dir hb1 hp hc1 h4
    · rw [if_neg hl] at h7 ⊢
      rw [h7]
  have hname : getFilename (pre ++ (stem ++ '.' :: x.2)) = .ok (stem ++ '.' :: x.2) := by
    unfold getFilename
    rw [fileName_dir hp hc2]
  have hset1 := setExtension_dir hb hp hn h1
  have hread : IsFile d (pre ++ (stem ++ '.' :: x.1)) → _ := fun hf => C107_file cab d hp hc1 (by
    obtain ⟨raw, r, h⟩ := hf
    intro es h'
    rw [h] at h'
    cases h')
  have holdsFile : ∀ buf, Holds cab d (pre ++ (stem ++ '.' :: x.1)) buf → IsFile d (pre ++ (stem ++ '.' :: x.1)) := by
    rintro buf ⟨_, _, raw, _, _, _, h, _⟩
    exact ⟨raw, true, h⟩
  refine ⟨?_, ?_, ?_⟩
  · rintro (hf | ⟨buf, hbuf, hno⟩)
    · refine ⟨_, hc1, hb1, ?_⟩
      rw [← isFile_iff] at hf
      simp only [findLoop, hset1, if_neg hf]
    · have hf := holdsFile _ hbuf
      have hr := ((hread hf).1 buf).mpr hbuf
      rw [← isFile_iff] at hf
      cases hpe : parse buf with
      | none =>
        refine ⟨_, hc1, hb1, ?_⟩
        simp only [findLoop, hset1, hf, if_true, hr, hpe]
      | some pe =>
        refine ⟨_, hc2, hb2, ?_⟩
        simp only [findLoop, hset1, hf, if_true, hr, hpe, hset, hname, if_neg (hno pe hpe)]
  · rintro buf ⟨hbuf, pe, hpe, hid⟩
    have hf := holdsFile _ hbuf
    have hr := ((hread hf).1 buf).mpr hbuf
    rw [← isFile_iff] at hf
    simp only [findLoop, hset1, hf, if_true, hr, hpe, hset, hname, if_pos hid]
  · by_cases hf : IsFile d (pre ++ (stem ++ '.' :: x.1))
    · by_cases hbuf : ∃ buf, Holds cab d (pre ++ (stem ++ '.' :: x.1)) buf
      · obtain ⟨buf, hbuf⟩ := hbuf
        by_cases hpe : ∃ pe, parse buf = some pe ∧ pe.debugId = id
        · exact .inr (.inl ⟨buf, hbuf, hpe⟩)
        · exact .inl (.inr ⟨buf, hbuf, fun pe h1 h2 => hpe ⟨pe, h1, h2⟩⟩)
      · have := (hread hf).2 hbuf
        rw [← isFile_iff] at hf
        refine .inr (.inr ?_)
        simp only [findLoop, hset1, hf, if_true, this]
    · exact .inl (.inl hf)

theorem findLoop_skip {pre stem : Str} (hp : WinDirPart pre) (before : List (Str × Str)) (hg : ∀ x ∈ before, x ∈ peExts)
    (hno : ∀ e ∈ before, NoPe cab parse d id (pre ++ (stem ++ '.' :: e.1))) (exts : List Str) :
    ∀ {name : Str}, WinProper name → BaseName name stem → ∃ n', WinProper n' ∧ BaseName n' stem ∧
      findLoop cab parse d id (pre ++ name) (before.map (·.1) ++ exts) = findLoop cab parse d id (pre ++ n') exts := by
  induction before with
  | nil => intro name hn hb; exact ⟨name, hn, hb, rfl⟩
  | cons x before ih =>
    intro name hn hb
    obtain ⟨n1, hn1, hb1, e1⟩ := (findLoop_step cab parse d id hp hn hb (hg x (by simp)) (before.map (·.1) ++ exts)).1
      (hno x (by simp))
    obtain ⟨n2, hn2, hb2, e2⟩ := ih (fun y hy => hg y (by simp [hy])) (fun y hy => hno y (by simp [hy])) hn1 hb1
    exact ⟨n2, hn2, hb2, by rw [List.map_cons, List.cons_append, e1, e2]⟩

theorem findLoop_cases {pre stem : Str} (hp : WinDirPart pre) (exts : List (Str × Str)) (hg : ∀ x ∈ exts, x ∈ peExts) :
    ∀ {name : Str}, WinProper name → BaseName name stem →
    (∃ before ext rep after buf, exts = before ++ (ext, rep) :: after ∧
      (∀ e ∈ before, NoPe cab parse d id (pre ++ (stem ++ '.' :: e.1))) ∧ IsPe cab parse d id (pre ++ (stem ++ '.' :: ext)) buf) ∨
    (∀ e ∈ exts, NoPe cab parse d id (pre ++ (stem ++ '.' :: e.1))) ∨
    findLoop cab parse d id (pre ++ name) (exts.map (·.1)) = .panic := by
  induction exts with
  | nil => intro name _ _; exact .inr (.inl (by simp))
  | cons x exts ih =>
    intro name hn hb
    obtain ⟨s1, _, s3⟩ := findLoop_step cab parse d id hp hn hb (hg x (by simp)) (exts.map (·.1))
    rcases s3 with hno | ⟨buf, hpe⟩ | hpan
    · obtain ⟨n1, hn1, hb1, e1⟩ := s1 hno
      rcases ih (fun y hy => hg y (by simp [hy])) hn1 hb1 with ⟨before, ext, rep, after, buf, k1, k2, k3⟩ | k | k
      · refine .inl ⟨x :: before, ext, rep, after, buf, by rw [k1]; rfl, ?_, k3⟩
        intro e he
        rcases List.mem_cons.mp he with rfl | he
        · exact hno
        · exact k2 e he
      · refine .inr (.inl ?_)
        intro e he
        rcases List.mem_cons.mp he with rfl | he
        · exact hno
        · exact k e he
      · exact .inr (.inr (by rw [List.map_cons, e1, k]))
    · exact .inl ⟨[], x.1, x.2, exts, buf, rfl, by simp, hpe⟩
    · exact .inr (.inr hpan)

/-- **C108**: on Windows the chosen PE is the first of the four candidates beside the PDB that is a PE with the PDB's debug id, and is reported under
an uncompressed extension; none is chosen if none of the four is.  The search panics when a candidate that comes before the first
match is a file that cannot be read. -/
theorem C108_pe_of_pdb {pre name stem : Str} (hp : WinDirPart pre) (hn : WinProper name) (hb : BaseName name stem) :
    (∀ x, findPeForPdb cab parse d (pre ++ name) id = .ok x ↔ PeFor cab parse d id pre stem x) ∧
    ((¬ ∃ x, PeFor cab parse d id pre stem x) → findPeForPdb cab parse d (pre ++ name) id = .panic) := by
  have hcomplete : ∀ x, PeFor cab parse d id pre stem x → findPeForPdb cab parse d (pre ++ name) id = .ok x := by
    intro x h
    cases h with
    | found before ext rep after buf h1 h2 h3 =>
      obtain ⟨n1, hn1, hb1, e1⟩ := findLoop_skip cab parse d id hp before
        (fun y hy => by rw [h1]; simp [hy]) h2 (ext :: after.map (·.1)) hn hb
      unfold findPeForPdb
      rw [show [str% "dll", str% "dl_", str% "exe", str% "ex_"] = peExts.map (·.1) from rfl, h1, List.map_append, List.map_cons, e1]
      exact (findLoop_step cab parse d id hp hn1 hb1 (x := (ext, rep)) (by rw [h1]; simp) _).2.1 buf h3
    | none h1 =>
      obtain ⟨n1, hn1, hb1, e1⟩ := findLoop_skip cab parse d id hp peExts (fun _ h => h) h1 [] hn hb
      unfold findPeForPdb
      rw [show [str% "dll", str% "dl_", str% "exe", str% "ex_"] = peExts.map (·.1) ++ [] from rfl, e1]
      rfl
  have hsound : (∃ x, PeFor cab parse d id pre stem x) ∨ findPeForPdb cab parse d (pre ++ name) id = .panic := by
    rcases findLoop_cases cab parse d id hp peExts (fun _ h => h) hn hb with ⟨before, ext, rep, after, buf, k1, k2, k3⟩ | k | k
    · exact .inl ⟨_, .found before ext rep after buf k1 k2 k3⟩
    · exact .inl ⟨_, .none k⟩
    · exact .inr k
  refine ⟨fun x => ⟨fun h => ?_, hcomplete x⟩, fun h => hsound.resolve_left h⟩
  rcases hsound with ⟨y, hy⟩ | hy
  · rw [hcomplete y hy] at h
    cases h
    exact hy
  · rw [hy] at h
    cases h

end

/-! ## C109 -/

theorem holds_file {cab : Cab} {d : Disk} {p : Str} {b : Bytes} (h : Holds cab d p b) : IsFile d p := by
  obtain ⟨_, _, raw, _, _, _, h, _⟩ := h
  exact ⟨raw, true, h⟩

/-- **C109 (partial)**: on Windows the PDB of a PE is read from the first of these that is a file: the recorded path, the file of that name beside
the PE, the same with extension `pd_`, and the file of that name **beside** the current directory (missing: the property asks for the current
directory itself, and for names that start with a drive; see the witnesses). -/
theorem C109_places_partial (cab : Cab) (d : Disk) {cwd path pre name : Str} {ps : List Str} (hpre : WinDirPart pre) (hn : WinProper name)
    (h : Places cwd path (pre ++ name) name ps) :
    (∀ before p after, ps = before ++ p :: after → (∀ q ∈ before, ¬ IsFile d q) → IsFile d p →
      (∀ b, osSpecificTryToFindPdb cab d cwd path (pre ++ name) = .ok (some b, name) ↔ Holds cab d p b) ∧
      ((¬ ∃ b, Holds cab d p b) → osSpecificTryToFindPdb cab d cwd path (pre ++ name) = .panic)) ∧
    ((∀ q ∈ ps, ¬ IsFile d q) → osSpecificTryToFindPdb cab d cwd path (pre ++ name) = .ok (none, name)) := by
  have hname := fileName_dir hpre hn
  obtain ⟨dir, cdir, stem, h1, h2, h3⟩ := h
  obtain ⟨s1, p1⟩ := setFileName_dirOf h1 hn
  obtain ⟨s2, p2⟩ := setFileName_dirOf h2 hn
  have s3 : WinPath.setExtension (dir ++ name) (str% "pd_") = dir ++ (stem ++ str% ".pd_") := setExtension_dir h3 p1 hn (by decide)
  have hn3 : WinProper (stem ++ str% ".pd_") := winProper_base h3 hn (x := str% "pd_") (by decide) ⟨by decide, by decide⟩
  have hform : osSpecificTryToFindPdb cab d cwd path (pre ++ name) =
      match [pre ++ name, dir ++ name, dir ++ (stem ++ str% ".pd_"), cdir ++ name].find? d.isFile with
      | some p => (readFile cab d p).map (fun b => (some b, name))
      | none => .ok (none, name) := by
    unfold osSpecificTryToFindPdb tryToFindPdb
    simp only [hname, s1, s2, s3, List.find?_cons, List.find?_nil]
    cases e1 : d.isFile (pre ++ name) with
    | true => simp
    | false =>
      simp only [Bool.false_eq_true, if_false]
      cases e2 : d.isFile (dir ++ name) with
      | true => simp only [if_true]; cases readFile cab d (dir ++ name) <;> rfl
      | false =>
        simp only [Bool.false_eq_true, if_false]
        cases e3 : d.isFile (dir ++ (stem ++ str% ".pd_")) with
        | true => simp only [if_true]; cases readFile cab d (dir ++ (stem ++ str% ".pd_")) <;> rfl
        | false =>
          simp only [Bool.false_eq_true, if_false]
          cases e4 : d.isFile (cdir ++ name) with
          | true => simp only [if_true]; cases readFile cab d (cdir ++ name) <;> rfl
          | false => simp only [Bool.false_eq_true, if_false, Res.map_ok]
  rw [hform]
  constructor
  · intro before p after e hb hp
    have hfind : [pre ++ name, dir ++ name, dir ++ (stem ++ str% ".pd_"), cdir ++ name].find? d.isFile = some p := by
      rw [e, List.find?_append, List.find?_cons_of_pos (isFile_iff.mpr hp), Option.or_eq_some_iff]
      refine .inr ⟨?_, rfl⟩
      rw [List.find?_eq_none]
      intro q hq h
      exact hb q hq (isFile_iff.mp h)
    rw [hfind]
    simp only
    have hmem : p ∈ [pre ++ name, dir ++ name, dir ++ (stem ++ str% ".pd_"), cdir ++ name] := by rw [e]; simp
    obtain ⟨q, n, hq, hqn, e'⟩ : ∃ q n, WinDirPart q ∧ WinProper n ∧ p = q ++ n := by
      simp only [List.mem_cons, List.not_mem_nil, or_false] at hmem
      rcases hmem with rfl | rfl | rfl | rfl
      · exact ⟨pre, name, hpre, hn, rfl⟩
      · exact ⟨_, _, p1, hn, rfl⟩
      · exact ⟨_, _, p1, hn3, rfl⟩
      · exact ⟨_, _, p2, hn, rfl⟩
    subst e'
    have hread := C107_file cab d hq hqn (by
      obtain ⟨raw, r, h⟩ := hp
      intro es h'
      rw [h] at h'
      cases h')
    constructor
    · intro b
      rw [← hread.1 b]
      cases readFile cab d (q ++ n) <;> simp
    · intro h
      rw [hread.2 h]
      rfl
  · intro hall
    have : [pre ++ name, dir ++ name, dir ++ (stem ++ str% ".pd_"), cdir ++ name].find? d.isFile = none := by
      rw [List.find?_eq_none]
      intro q hq h
      exact hall q hq (isFile_iff.mp h)
    rw [this]

/-- A recorded path without a file name (like `..` or `C:\`) finds nothing, whatever is on the disk. -/
theorem C109_nameless (cab : Cab) (d : Disk) (cwd path recorded : Str) (h : WinPath.fileName recorded = none) :
    osSpecificTryToFindPdb cab d cwd path recorded = .ok (none, []) := by
  unfold osSpecificTryToFindPdb
  rw [h]

/-- **C109 is false of the code**: the PDB in the current directory is not found, the one beside the current directory is. -/
theorem C109_cwd_witness :
    osSpecificTryToFindPdb noCab (diskOf [(str% "C:\\home\\u\\m.pdb", .file [1] true)]) (str% "C:\\home\\u") (str% "C:\\x\\m.dll")
      (str% "D:\\b\\m.pdb") = .ok (none, str% "m.pdb") ∧
    osSpecificTryToFindPdb noCab (diskOf [(str% "C:\\home\\m.pdb", .file [1] true)]) (str% "C:\\home\\u") (str% "C:\\x\\m.dll")
      (str% "D:\\b\\m.pdb") = .ok (some [1], str% "m.pdb") := by decide

/-- **C109 is false of the code**: a recorded path whose last name starts with a drive is looked for on that drive and not beside the PE. -/
theorem C109_drive_witness :
    osSpecificTryToFindPdb noCab (diskOf [(str% "D:\\x\\C:m.pdb", .file [1] true)]) (str% "D:\\home\\u") (str% "D:\\x\\m.dll")
      (str% "b\\C:m.pdb") = .ok (none, str% "C:m.pdb") ∧
    osSpecificTryToFindPdb noCab (diskOf [(str% "C:m.pdb", .file [1] true)]) (str% "D:\\home\\u") (str% "D:\\x\\m.dll")
      (str% "b\\C:m.pdb") = .ok (some [1], str% "C:m.pdb") := by decide

/-! ### Examples -/

/-- A name of the examples is a name of a file. -/
def winProperB (c : Str) : Bool :=
  c != [] && !c.contains '/' && !c.contains '\\' && c != ['.'] && c != ['.', '.'] &&
    !(match c with | d :: ':' :: _ => d.isAlpha | _ => false)

theorem winProper_of {c : Str} (h : winProperB c = true) : WinProper c := by
  simp only [winProperB, Bool.and_eq_true, bne_iff_ne, ne_eq, Bool.not_eq_true', List.contains_eq_mem, decide_eq_false_iff_not] at h
  obtain ⟨⟨⟨⟨⟨h1, h2⟩, h3⟩, h4⟩, h5⟩, h6⟩ := h
  refine ⟨h1, ⟨h2, h3⟩, h4, h5, ?_⟩
  rintro ⟨d, r, rfl, hd⟩
  simp only [hd] at h6
  cases h6

/-- `C:\w\`, `d/` and `\\srv\share\` can be put before a name. -/
theorem ex_part_drive : WinDirPart (str% "C:\\w\\") :=
  ⟨str% "C:\\", str% "w\\", rfl, .driveRooted 'C' '\\' _ (by decide) (by decide), .inr ⟨str% "w", '\\', rfl, by decide⟩⟩
theorem ex_part_rel : WinDirPart (str% "d/") :=
  ⟨[], str% "d/", rfl, .plain _ (by rintro ⟨d, r, e, _⟩; cases e) (by rintro ⟨x, r, e, h⟩; cases e; cases h),
    .inr ⟨str% "d", '/', rfl, by decide⟩⟩
theorem ex_part_share : WinDirPart (str% "\\\\srv\\share\\") :=
  ⟨str% "\\\\srv\\share\\", [], rfl, .share '\\' '\\' '\\' '\\' (str% "srv") (str% "share") _ (by decide) (by decide) (by decide) (by decide)
    ⟨by decide, by decide⟩ ⟨by decide, by decide⟩ (by decide) (by decide) (by decide) (by decide), .inl rfl⟩

/-- The cabinet of the examples holds `m.pdb` and `sub\m.dll`. -/
def exCab : Cab := fun b => if b = [77] then some [(str% "m.pdb", some [3]), (str% "sub\\m.dll", some [80, 1, 9])] else none

/-- A cabinet on a share: the entry is found behind a backslash (which is part of the name elsewhere). -/
example : readFile exCab (diskOf [(str% "\\\\srv\\share\\m.dl_", .file [77] true)]) (str% "\\\\srv\\share\\m.dl_") = .ok [80, 1, 9] := by decide
example : Holds exCab (diskOf [(str% "\\\\srv\\share\\m.dl_", .file [77] true)]) (str% "\\\\srv\\share\\m.dl_") [80, 1, 9] :=
  ((C107_file exCab _ ex_part_share (name := str% "m.dl_") (winProper_of (by decide)) (by intro es h; cases h)).1 _).mp (by decide)
example : Files.readFile exCab (diskOf [(str% "/m.dl_", .file [77] true)]) (str% "/m.dl_") = .panic := by decide
/-- A missing file, and a cabinet without the wanted entry. -/
example : readFile exCab (diskOf []) (str% "d/m.pdb") = .panic :=
  (C107_file exCab _ ex_part_rel (name := str% "m.pdb") (winProper_of (by decide)) (by intro es h; cases h)).2
    (by rintro ⟨b, _, _, raw, _, _, _, h, _⟩; cases h)
example : readFile exCab (diskOf [(str% "d/x.pd_", .file [77] true)]) (str% "d/x.pd_") = .panic := by decide

/-- A bundle on a drive. -/
def exBundle : Disk := diskOf [(str% "C:\\m.dSYM", .dir [str% "Contents"]),
  (str% "C:\\m.dSYM\\Contents/Resources/DWARF", .dir [str% "m"]), (str% "C:\\m.dSYM\\Contents/Resources/DWARF\\m", .file [4, 5] true)]
example : readFile noCab exBundle (str% "C:\\m.dSYM") = .ok [4, 5] := by decide
example : BundleHolds noCab exBundle (str% "C:\\m.dSYM") [4, 5] := by
  have hd : ∀ q es, exBundle q = some (.dir es) → ∀ e ∈ es, WinProper e := by
    intro q es h e he
    simp only [exBundle, diskOf, List.lookup_cons, List.lookup_nil] at h
    repeat' split at h
    all_goals cases h
    all_goals
      rw [List.mem_singleton.mp he]
      exact winProper_of (by decide)
  exact ((C107_bundle noCab exBundle (a := str% "C:\\") (s := str% "m.dSYM") (.driveRooted 'C' '\\' _ (by decide) (by decide))
    (es := [str% "Contents"]) (by decide) hd).1 _).mp (by decide)

/-- The `dl_` is a cabinet with the right PE, and is reported as `dll`. -/
example : findPeForPdb exCab parseEx (diskOf [(str% "C:\\w\\m.dl_", .file [77] true), (str% "C:\\w\\m.exe", .file [80, 1] true)])
    (str% "C:\\w\\m.pdb") (str% "A1") = .ok (some (str% "m.dll", [80, 1, 9])) := by decide
example : PeFor exCab parseEx (diskOf [(str% "C:\\w\\m.dl_", .file [77] true), (str% "C:\\w\\m.exe", .file [80, 1] true)])
    (str% "A1") (str% "C:\\w\\") (str% "m") (some (str% "m.dll", [80, 1, 9])) :=
  ((C108_pe_of_pdb exCab parseEx _ (str% "A1") ex_part_drive (name := str% "m.pdb") (stem := str% "m") (winProper_of (by decide))
    (.ext (str% "m") (str% "pdb") (by decide) (by decide))).1 _).mp (by decide)
/-- A file of another id and a file that is no PE are passed over. -/
example : findPeForPdb noCab parseEx (diskOf [(str% "d/m.dll", .file [80, 2] true), (str% "d/m.dl_", .file [1] true),
    (str% "d/m.ex_", .file [80, 1, 7] true)]) (str% "d/m.pdb") (str% "A1") = .ok (some (str% "m.exe", [80, 1, 7])) := by decide
/-- A damaged cabinet stops the run. -/
example : findPeForPdb (fun b => if b = [77] then some [] else none) parseEx (diskOf [(str% "C:\\w\\m.dl_", .file [77] true)])
    (str% "C:\\w\\m.pdb") (str% "A1") = .panic := by decide

/-- The directories of `C:\x\sub\\.\m.dll`, of `m.dll` and of `C:m.dll`. -/
example : WinDirOf (str% "C:\\x\\sub\\\\.\\m.dll") (str% "C:\\x\\sub\\") :=
  .below (str% "C:\\") (str% "x\\sub") (str% "\\.\\") (str% "m.dll") '\\' rfl (.driveRooted 'C' '\\' _ (by decide) (by decide)) (by decide)
    (by rintro (h | ⟨t, x, h, h'⟩)
        · cases h
        · have e : str% "x\\sub" = str% "x\\su" ++ ['b'] := rfl
          rw [e] at h
          have := (snoc_inj h).2
          subst this
          cases h')
    (by rintro ⟨t, y, h, -⟩
        have e : str% "x\\sub" = str% "x\\su" ++ ['b'] := rfl
        have e2 : t ++ [y, '.'] = (t ++ [y]) ++ ['.'] := by simp
        rw [e, e2] at h
        exact absurd (snoc_inj h).2 (by decide))
    (fun h => by cases h) (by decide) (.sep _ _ (by decide) (.dot _ _ (by decide) .nil)) (winProper_of (by decide))
theorem ex_dirOf_rel : WinDirOf (str% "m.dll") [] :=
  .top [] [] (str% "m.dll") rfl (.plain _ (by rintro ⟨d, r, e, _⟩; cases e) (by rintro ⟨x, r, e, h⟩; cases e; cases h)) .nil (.inl rfl)
    (winProper_of (by decide))
theorem ex_dirOf_drive : WinDirOf (str% "C:m.dll") (str% "C:") :=
  .top (str% "C:") [] (str% "m.dll") rfl (.drive 'C' _ (by decide) (by rintro ⟨x, r, e, h⟩; cases e; cases h)) .nil (.inl rfl)
    (winProper_of (by decide))
/-- The directory beside a current directory at the root of a drive is the root itself. -/
theorem ex_dirOf_root : WinDirOf (str% "C:\\") (str% "C:\\") :=
  .self (by decide) (by decide) (.inr (.inl ⟨str% "C:", '\\', rfl, .inr rfl⟩))
    ⟨str% "C:\\", [], rfl, .driveRooted 'C' '\\' _ (by decide) (by decide), .inl rfl⟩

/-- The theorem for a PE on another drive's current directory, started in the root of `C:`: the compressed PDB beside the PE is taken before the
one in the current directory, which the search finds here. -/
example : osSpecificTryToFindPdb noCab (diskOf [(str% "C:m.pd_", .file [5] true), (str% "C:\\m.pdb", .file [6] true)]) (str% "C:\\")
    (str% "C:m.dll") (str% "C:\\w\\m.pdb") = .ok (some [5], str% "m.pdb") :=
  (((C109_places_partial noCab (diskOf [(str% "C:m.pd_", .file [5] true), (str% "C:\\m.pdb", .file [6] true)]) ex_part_drive
    (name := str% "m.pdb") (winProper_of (by decide))
    (.mk _ _ (str% "m") ex_dirOf_drive ex_dirOf_root (.ext (str% "m") (str% "pdb") (by decide) (by decide)))).1
      [str% "C:\\w\\m.pdb", str% "C:m.pdb"] (str% "C:m.pd_") [str% "C:\\m.pdb"] rfl
      (by intro q hq h
          have := isFile_iff.mpr h
          simp only [List.mem_cons, List.not_mem_nil, or_false] at hq
          rcases hq with rfl | rfl <;> revert this <;> decide)
      ⟨[5], true, by decide⟩).1 [5]).mpr
    ⟨str% "C:", str% "m.pd_", [5], rfl, ⟨str% "C:", [], rfl, .drive 'C' _ (by decide) (by rintro ⟨x, r, e, -⟩; cases e), .inl rfl⟩,
      winProper_of (by decide), by decide, .plain rfl⟩
/-- The recorded path comes first, and forward slashes separate names too. -/
example : osSpecificTryToFindPdb noCab (diskOf [(str% "D:/b/m.pdb", .file [7] true), (str% "x\\m.pdb", .file [6] true)]) (str% "C:\\u")
    (str% "x/m.dll") (str% "D:/b/m.pdb") = .ok (some [7], str% "m.pdb") := by decide
example : osSpecificTryToFindPdb noCab (diskOf [(str% "x\\m.pdb", .file [6] true)]) (str% "C:\\u")
    (str% "x/m.dll") (str% "D:/b/m.pdb") = .ok (some [6], str% "m.pdb") := by decide
example : osSpecificTryToFindPdb noCab (diskOf [(str% "x\\m.pdb", .file [6] true)]) (str% "C:\\u") (str% "x/m.dll") (str% "D:\\") = .ok (none, []) :=
  C109_nameless _ _ _ _ _ (by decide)

end WinHost
end DumpSyms
