import Verif.Spec.Reading
import Verif.Props.Cache
/-!
# C77: what is read from a path
-/
namespace DumpSyms
open Path

theorem expanded_iff (pre stem e : Str) (hp : DirPart pre) (hs : stem ≠ []) (he : '.' ∉ e) (hc : ProperComp (stem ++ '.' :: e)) :
    ∃ x, Expanded e x ∧ (∀ y, Expanded e y → y = x) ∧
      Utils.getCorrectedPath (pre ++ (stem ++ '.' :: e)) = .ok (pre ++ (stem ++ '.' :: x)) ∧ '/' ∉ x := by
  have hext : extension (pre ++ (stem ++ '.' :: e)) = some e := by
    unfold extension
    rw [fileName_dirPart hp hc]
    simp only [rsplitDot_append stem e he, if_neg hs]
  have hset : ∀ x, x ≠ [] → setExtension (pre ++ (stem ++ '.' :: e)) x = pre ++ (stem ++ '.' :: x) := fun x hx =>
    setExtension_dirPart hp hs he hc hx
  have hsl : '/' ∉ e := fun h => hc.2.1 (by simp [h])
  unfold Utils.getCorrectedPath
  rw [hext]
  simp only
  rcases e with _ | ⟨a, _ | ⟨b, t⟩⟩
  · refine ⟨[], .same _ (by intro a b t h; cases h), ?_, by simp, by simp⟩
    intro y hy; cases hy; rfl
  · refine ⟨[a], .same _ (by intro a b t h; cases h), ?_, by simp [List.isPrefixOf], hsl⟩
    intro y hy; cases hy; rfl
  · have huniq : ∀ {x y : Str} {c d : Char},
        (c, d, x) ∈ [('p', 'd', str% "pdb"), ('d', 'l', str% "dll"), ('e', 'x', str% "exe"), ('d', 'b', str% "dbg")] →
        (c, d, y) ∈ [('p', 'd', str% "pdb"), ('d', 'l', str% "dll"), ('e', 'x', str% "exe"), ('d', 'b', str% "dbg")] → y = x := by
      intro x y c d h1 h2
      simp only [List.mem_cons, Prod.mk.injEq, List.not_mem_nil, or_false] at h1 h2
      rcases h1 with ⟨rfl, rfl, rfl⟩ | ⟨rfl, rfl, rfl⟩ | ⟨rfl, rfl, rfl⟩ | ⟨rfl, rfl, rfl⟩ <;>
      rcases h2 with ⟨g, g', rfl⟩ | ⟨g, g', rfl⟩ | ⟨g, g', rfl⟩ | ⟨g, g', rfl⟩ <;> first | rfl | (exact absurd g (by decide)) |
        (exact absurd g' (by decide))
    have hpair : ∀ {x : Str} {c d : Char},
        (c, d, x) ∈ [('p', 'd', str% "pdb"), ('d', 'l', str% "dll"), ('e', 'x', str% "exe"), ('d', 'b', str% "dbg")] →
        (c, d) ∈ [('p', 'd'), ('d', 'l'), ('e', 'x'), ('d', 'b')] := by
      intro x c d h
      simp only [List.mem_cons, Prod.mk.injEq, List.not_mem_nil, or_false] at h ⊢
      rcases h with ⟨rfl, rfl, rfl⟩ | ⟨rfl, rfl, rfl⟩ | ⟨rfl, rfl, rfl⟩ | ⟨rfl, rfl, rfl⟩ <;> simp
    have hfin : ∀ x, (a, b, x) ∈ [('p', 'd', str% "pdb"), ('d', 'l', str% "dll"), ('e', 'x', str% "exe"), ('d', 'b', str% "dbg")] →
        Expanded (a :: b :: t) x ∧ ∀ y, Expanded (a :: b :: t) y → y = x := by
      intro x hx
      refine ⟨.two a b t x hx, ?_⟩
      intro y hy
      cases hy with
      | two _ _ _ _ h => exact huniq hx h
      | same _ h => exact absurd (hpair hx) (h a b t rfl)
    by_cases c1 : a = 'p' ∧ b = 'd'
    · obtain ⟨rfl, rfl⟩ := c1
      obtain ⟨h1, h2⟩ := hfin (str% "pdb") (by decide)
      exact ⟨_, h1, h2, by simp [List.isPrefixOf, hset], by decide⟩
    by_cases c2 : a = 'd' ∧ b = 'l'
    · obtain ⟨rfl, rfl⟩ := c2
      obtain ⟨h1, h2⟩ := hfin (str% "dll") (by decide)
      exact ⟨_, h1, h2, by simp [List.isPrefixOf, hset], by decide⟩
    by_cases c3 : a = 'e' ∧ b = 'x'
    · obtain ⟨rfl, rfl⟩ := c3
      obtain ⟨h1, h2⟩ := hfin (str% "exe") (by decide)
      exact ⟨_, h1, h2, by simp [List.isPrefixOf, hset], by decide⟩
    by_cases c4 : a = 'd' ∧ b = 'b'
    · obtain ⟨rfl, rfl⟩ := c4
      obtain ⟨h1, h2⟩ := hfin (str% "dbg") (by decide)
      exact ⟨_, h1, h2, by simp [List.isPrefixOf, hset], by decide⟩
    have hno : (a, b) ∉ [('p', 'd'), ('d', 'l'), ('e', 'x'), ('d', 'b')] := by
      simp only [List.mem_cons, Prod.mk.injEq, List.not_mem_nil, or_false]
      rintro (h | h | h | h)
      · exact c1 h
      · exact c2 h
      · exact c3 h
      · exact c4 h
    refine ⟨a :: b :: t, .same _ (by intro a' b' t' h; cases h; exact hno), ?_, ?_, hsl⟩
    · intro y hy
      cases hy with
      | two _ _ _ _ h => exact absurd (hpair h) hno
      | same => rfl
    · have q : ∀ c d : Char, ¬ (a = c ∧ b = d) → List.isPrefixOf [c, d] (a :: b :: t) = false := by
        intro c d h
        rw [Bool.eq_false_iff]
        intro hh
        simp [List.isPrefixOf] at hh
        exact h ⟨hh.1.symm, hh.2.symm⟩
      rw [q 'p' 'd' c1, q 'd' 'l' c2, q 'e' 'x' c3, q 'd' 'b' c4]
      simp

theorem findEntry_iff (w : Str) (l : List (Str × Option Bytes)) (e : Str × Option Bytes) :
    Files.findEntry w l = .ok (some e) ↔ ∃ before after, l = before ++ e :: after ∧ fileName e.1 = some w ∧
      ∀ o ∈ before, ∃ n, fileName o.1 = some n ∧ n ≠ w := by
  induction l with
  | nil => simp [Files.findEntry]
  | cons o l ih =>
    unfold Files.findEntry
    cases ho : fileName o.1 with
    | none =>
      simp only
      constructor
      · intro h; cases h
      · rintro ⟨b, a, h1, h2, h3⟩
        cases b with
        | nil => cases h1; rw [ho] at h2; cases h2
        | cons x b => cases h1; obtain ⟨n, h4, _⟩ := h3 o (by simp); rw [ho] at h4; cases h4
    | some n =>
      simp only
      by_cases hn : n = w
      · rw [if_pos hn]
        constructor
        · intro h; cases h; exact ⟨[], l, rfl, by rw [ho, hn], by simp⟩
        · rintro ⟨b, a, h1, h2, h3⟩
          cases b with
          | nil => cases h1; rfl
          | cons x b =>
            cases h1
            obtain ⟨m, h4, h5⟩ := h3 o (by simp)
            rw [ho] at h4; cases h4; exact absurd hn h5
      · rw [if_neg hn, ih]
        constructor
        · rintro ⟨b, a, rfl, h2, h3⟩
          refine ⟨o :: b, a, rfl, h2, ?_⟩
          intro x hx
          rcases List.mem_cons.mp hx with rfl | hx
          · exact ⟨n, ho, hn⟩
          · exact h3 x hx
        · rintro ⟨b, a, h1, h2, h3⟩
          cases b with
          | nil => cases h1; rw [ho] at h2; cases h2; exact absurd rfl hn
          | cons x b =>
            cases h1
            exact ⟨b, a, rfl, h2, fun y hy => h3 y (by simp [hy])⟩

theorem readCabinet_iff (cab : Cab) (raw b : Bytes) (pre n : Str) (hp : DirPart pre) (hc : ProperComp n) :
    Files.readCabinet cab raw (pre ++ n) = .ok (some b) ↔ FileHolds cab n raw b := by
  unfold Files.readCabinet
  cases hcab : cab raw with
  | none =>
    simp only
    constructor
    · intro h; cases h; exact .plain hcab
    · intro h
      cases h with
      | plain => rfl
      | packed stem e x entry before after b h => rw [hcab] at h; cases h
  | some es =>
    simp only
    rcases split_last_dot n with hd | ⟨stem, e, rfl, he⟩
    · have hext : extension (pre ++ n) = none := by
        unfold extension; rw [fileName_dirPart hp hc]; simp only [rsplitDot_none n hd]
      unfold Utils.getCorrectedPath
      rw [hext]
      simp only
      constructor
      · intro h; cases h
      · intro h
        cases h with
        | plain h => rw [hcab] at h; cases h
        | packed stem e x entry before after b h1 h2 => exact absurd (by rw [h2]; simp) hd
    · by_cases hs : stem = []
      · have hext : extension (pre ++ (stem ++ '.' :: e)) = none := by
          unfold extension; rw [fileName_dirPart hp hc]; simp only [rsplitDot_append stem e he, if_pos hs]
        unfold Utils.getCorrectedPath
        rw [hext]
        simp only
        constructor
        · intro h; cases h
        · intro h
          cases h with
          | plain h => rw [hcab] at h; cases h
          | packed stem' e' x entry before after b h1 h2 h3 h4 =>
            have := congrArg rsplitDot h2
            rw [rsplitDot_append _ _ he, rsplitDot_append _ _ h4] at this
            cases this; exact absurd hs h3
      · obtain ⟨x, hx, hux, hcp, hxs⟩ := expanded_iff pre stem e hp hs he hc
        have hpx : ProperComp (stem ++ '.' :: x) := by
          by_cases hxe : x = []
          · subst hxe
            cases hx with
            | two a b t new h =>
              simp only [List.mem_cons, Prod.mk.injEq, List.not_mem_nil, or_false] at h
              rcases h with ⟨_, _, h⟩ | ⟨_, _, h⟩ | ⟨_, _, h⟩ | ⟨_, _, h⟩ <;> cases h
            | same => exact hc
          · exact proper_stem hs (fun h => hc.2.1 (by simp [h])) hxe hxs
        rw [hcp]
        simp only [fileName_dirPart hp hpx]
        have hmain : (∃ entry, Files.findEntry (stem ++ '.' :: x) es = .ok (some (entry, some b))) ↔
            FileHolds cab (stem ++ '.' :: e) raw b := by
          constructor
          · rintro ⟨entry, h⟩
            obtain ⟨before, after, h1, h2, h3⟩ := (findEntry_iff _ _ _).mp h
            exact .packed stem e x entry before after b (h1 ▸ hcab) rfl hs he hx h2 h3
          · intro h
            cases h with
            | plain h => rw [hcab] at h; cases h
            | packed stem' e' x' entry before after b h1 h2 h3 h4 h5 h6 h7 =>
              have := congrArg rsplitDot h2
              rw [rsplitDot_append _ _ he, rsplitDot_append _ _ h4] at this
              cases this
              cases hux _ h5
              rw [hcab] at h1; cases h1
              exact ⟨entry, (findEntry_iff _ _ _).mpr ⟨before, after, rfl, h6, h7⟩⟩
        rw [← hmain]
        cases hf : Files.findEntry (stem ++ '.' :: x) es with
        | ok r =>
          cases r with
          | none => simp
          | some r =>
            obtain ⟨entry, c⟩ := r
            simp
        | err m => simp
        | panic => simp

theorem inside_push (dir name : Str) (hn : isAbs name = false) : push dir name = Inside dir name := by
  unfold push Inside
  rw [hn]
  simp [List.getLast?_eq_none_iff]

theorem isAbs_proper {n : Str} (h : ProperComp n) : isAbs n = false := proper_head h

/-- A name inside a directory is the last part of its path. -/
theorem inside_parts (dir name : Str) : ∃ pre, DirPart pre ∧ Inside dir name = pre ++ name := by
  unfold Inside
  split
  · exact ⟨dir, ‹_›, rfl⟩
  · exact ⟨dir ++ ['/'], .inr (by simp), by simp⟩

/-- **C77, any path.** The same for a path that need not end with a name unless there is a file. -/
theorem C77_read_any (cab : Cab) (d : Disk) (path : Str)
    (hf : ∀ raw r, d path = some (.file raw r) → ∃ pre name, path = pre ++ name ∧ DirPart pre ∧ ProperComp name)
    (hd : ∀ q es, d q = some (.dir es) → ∀ e ∈ es, ProperComp e) :
    (∀ b, Files.readFile cab d path = .ok b ↔ PathHolds cab d path b) ∧
    ((¬ ∃ b, Files.readFile cab d path = .ok b) → Files.readFile cab d path = .panic) := by
  unfold PathHolds
  have hread : ∀ p q n, p = q ++ n → DirPart q → ProperComp n → ∀ raw b,
      (match Files.readCabinet cab raw p with | .ok (some r) => Res.ok r | _ => .panic) = .ok b ↔
        ∃ q n, p = q ++ n ∧ DirPart q ∧ ProperComp n ∧ FileHolds cab n raw b := by
    intro p q n e hq hnn raw b
    constructor
    · intro h
      refine ⟨q, n, e, hq, hnn, ?_⟩
      rw [← readCabinet_iff cab raw b q n hq hnn, ← e]
      revert h
      cases Files.readCabinet cab raw p with
      | ok r => cases r <;> simp
      | err m => simp
      | panic => simp
    · rintro ⟨q', n', e', hq', hn', h⟩
      rw [e', (readCabinet_iff cab raw b q' n' hq' hn').mpr h]
  have hpanic : ∀ (p : Str) (raw : Bytes), (¬ ∃ b, (match Files.readCabinet cab raw p with | .ok (some r) => Res.ok r | _ => .panic) = .ok b) →
      (match Files.readCabinet cab raw p with | .ok (some r) => Res.ok r | _ => .panic) = .panic := by
    intro p raw h
    split
    · rename_i r hr; rw [hr] at h; exact absurd ⟨r, rfl⟩ h
    · rfl
  unfold Files.readFile Files.macBundle
  simp only
  have hD : push path (str% "Contents/Resources/DWARF") = Inside path (str% "Contents/Resources/DWARF") :=
    inside_push _ _ (by decide)
  rw [hD]
  cases h1 : d path with
  | none =>
    simp only
    refine ⟨fun b => ⟨(fun h => by cases h), ?_⟩, fun _ => trivial⟩
    rintro ⟨p, q, n, raw, h, _⟩
    cases h with
    | file _ h => rw [h1] at h; cases h
    | bundle es e _ h => rw [h1] at h; cases h
  | some node =>
    cases node with
    | file raw r =>
      simp only [h1]
      cases r with
      | false =>
        simp only
        refine ⟨fun b => ⟨(fun h => by cases h), ?_⟩, fun _ => trivial⟩
        rintro ⟨p, q, n, raw, h, _⟩
        cases h with
        | file _ h => rw [h1] at h; cases h
        | bundle es e _ h => rw [h1] at h; cases h
      | true =>
        simp only
        obtain ⟨pre, name, e, hp, hn⟩ := hf raw true h1
        refine ⟨fun b => ?_, hpanic _ raw⟩
        refine (hread path pre name e hp hn raw b).trans ?_
        constructor
        · rintro ⟨q, n, a⟩
          exact ⟨_, q, n, raw, .file raw h1, a⟩
        · rintro ⟨p, q, n, raw', h, a⟩
          cases h with
          | file _ h => rw [h1] at h; cases h; exact ⟨q, n, a⟩
          | bundle es e _ h => rw [h1] at h; cases h
    | dir es =>
      simp only
      have hno : (∀ e, d (Inside path (str% "Contents/Resources/DWARF")) = some (.dir [e]) →
            ∀ raw, d (Inside (Inside path (str% "Contents/Resources/DWARF")) e) ≠ some (.file raw true)) → ∀ b,
          ¬ ∃ p q n raw, ReadAt d path p raw ∧ p = q ++ n ∧ DirPart q ∧ ProperComp n ∧ FileHolds cab n raw b := by
        rintro hx b ⟨p, q, n, raw, h, _⟩
        cases h with
        | file _ h => rw [h1] at h; cases h
        | bundle es e _ _ h2 h3 => exact hx e h2 raw h3
      cases h2 : d (Inside path (str% "Contents/Resources/DWARF")) with
      | none =>
        simp only
        exact ⟨fun b => ⟨(fun h => by cases h), fun h => absurd h (hno (by intro e h; rw [h2] at h; cases h) b)⟩, fun _ => trivial⟩
      | some nd =>
        rcases nd with ⟨raw, r⟩ | l
        · simp only
          exact ⟨fun b => ⟨(fun h => by cases h), fun h => absurd h (hno (by intro e h; rw [h2] at h; cases h) b)⟩, fun _ => trivial⟩
        · rcases l with _ | ⟨e, _ | ⟨e2, l⟩⟩
          · simp only
            exact ⟨fun b => ⟨(fun h => by cases h), fun h => absurd h (hno (by intro e h; rw [h2] at h; cases h) b)⟩, fun _ => trivial⟩
          · simp only
            have he : ProperComp e := hd _ _ h2 e (by simp)
            rw [inside_push _ e (isAbs_proper he)]
            cases h3 : d (Inside (Inside path (str% "Contents/Resources/DWARF")) e) with
            | none =>
              simp only
              refine ⟨fun b => ⟨(fun h => by cases h), fun h => absurd h (hno ?_ b)⟩, fun _ => trivial⟩
              intro e' h raw; rw [h2] at h; cases h; rw [h3]; simp
            | some nd =>
              rcases nd with ⟨raw, _ | _⟩ | l
              · simp only
                refine ⟨fun b => ⟨(fun h => by cases h), fun h => absurd h (hno ?_ b)⟩, fun _ => trivial⟩
                intro e' h raw; rw [h2] at h; cases h; rw [h3]; simp
              · simp only
                refine ⟨fun b => ?_, hpanic _ raw⟩
                obtain ⟨q, hq, eq⟩ := inside_parts (Inside path (str% "Contents/Resources/DWARF")) e
                refine (hread _ q e eq hq he raw b).trans ?_
                constructor
                · rintro ⟨q, n, a⟩
                  exact ⟨_, q, n, raw, .bundle es e raw h1 h2 h3, a⟩
                · rintro ⟨p, q, n, raw', h, a⟩
                  cases h with
                  | file _ h => rw [h1] at h; cases h
                  | bundle es' e' _ g1 g2 g3 =>
                    rw [h2] at g2; cases g2
                    rw [h3] at g3; cases g3
                    exact ⟨q, n, a⟩
              · simp only
                refine ⟨fun b => ⟨(fun h => by cases h), fun h => absurd h (hno ?_ b)⟩, fun _ => trivial⟩
                intro e' h raw; rw [h2] at h; cases h; rw [h3]; simp
          · simp only
            exact ⟨fun b => ⟨(fun h => by cases h), fun h => absurd h (hno (by intro e h; rw [h2] at h; cases h) b)⟩, fun _ => trivial⟩

/-- **C77.** What is read for a path: the bytes of the file, or of the only file of a bundle's `DWARF` directory; and if they are a
cabinet, the bytes of its first entry with the uncompressed name.  Anything else stops the run. -/
theorem C77_read (cab : Cab) (d : Disk) (pre name : Str) (hp : DirPart pre) (hn : ProperComp name)
    (hd : ∀ q es, d q = some (.dir es) → ∀ e ∈ es, ProperComp e) :
    (∀ b, Files.readFile cab d (pre ++ name) = .ok b ↔ PathHolds cab d (pre ++ name) b) ∧
    ((¬ ∃ b, Files.readFile cab d (pre ++ name) = .ok b) → Files.readFile cab d (pre ++ name) = .panic) :=
  C77_read_any cab d _ (fun _ _ _ => ⟨pre, name, rfl, hp, hn⟩) hd

/-- In the examples `[9, 9]` is a cabinet with a damaged `a.txt`, and `dir/m.dll`. -/
def readCab : Cab := fun b => if b = [9, 9] then some [(str% "a.txt", none), (str% "dir/m.dll", some [80, 1])] else none

/-- A disk with a compressed file, a plain one and two bundles. -/
def readDisk : Disk := fun p =>
  if p = str% "/s/m.dl_" then some (.file [9, 9] true)
  else if p = str% "/s/m.DL_" then some (.file [9, 9] true)
  else if p = str% "/s/m.so" then some (.file [1, 2] true)
  else if p = str% "/s/m.dSYM" then some (.dir [str% "Contents"])
  else if p = str% "/s/m.dSYM/Contents/Resources/DWARF" then some (.dir [str% "m"])
  else if p = str% "/s/m.dSYM/Contents/Resources/DWARF/m" then some (.file [3] true)
  else if p = str% "/s/n.dSYM" then some (.dir [str% "Contents"])
  else if p = str% "/s/n.dSYM/Contents/Resources/DWARF" then some (.dir [str% "n", str% "o"])
  else none

theorem readDisk_ok : ∀ q es, readDisk q = some (.dir es) → ∀ e ∈ es, ProperComp e := by
  intro q es h e he
  unfold readDisk at h
  repeat' split at h
  all_goals first | (cases h; done) | (cases h; revert e; unfold ProperComp; decide)

example : Files.readFile readCab readDisk (str% "/s/m.dl_") = .ok [80, 1] ∧
    Files.readFile readCab readDisk (str% "/s/m.so") = .ok [1, 2] ∧
    Files.readFile readCab readDisk (str% "/s/m.dSYM") = .ok [3] ∧
    Files.readFile readCab readDisk (str% "/s/n.dSYM") = .panic := by decide

example : FileHolds readCab (str% "m.dl_") [9, 9] [80, 1] :=
  .packed (str% "m") (str% "dl_") (str% "dll") (str% "dir/m.dll") [(str% "a.txt", none)] [] [80, 1] (by decide) (by decide) (by decide) (by decide)
    (.two 'd' 'l' ['_'] _ (by decide)) (by decide) (by intro o ho; cases List.mem_singleton.mp ho; exact ⟨str% "a.txt", by decide, by decide⟩)

/-- The extension is compared with regard to case here (C31 compares it without): the same cabinet under the name `m.DL_` stops the run. -/
theorem C77_upper_case_witness : Files.readFile readCab readDisk (str% "/s/m.DL_") = .panic ∧
    Utils.getBase (str% "m.DL_") = str% "m.dll" := by decide

end DumpSyms
