import Verif.Proof.Path
/-!
# C31, C32, C39, C40: paths
-/
namespace DumpSyms
open Path Utils

/-! ### C39: normalization -/

theorem bodyComp_normal_proper {s c : Str} (hs : ∀ x ∈ s, isSlash x = false) (h : bodyComp s = some (.normal c)) :
    ProperComp c := by
  unfold bodyComp at h
  split at h
  · cases h
  split at h
  · cases h
  split at h
  · cases h
  simp at h; subst h
  refine ⟨by assumption, ?_, by assumption, by assumption⟩
  intro hm; have := hs _ hm; simp [isSlash] at this

theorem components_proper (p c : Str) (h : Comp.normal c ∈ components p) : ProperComp c := by
  unfold components at h
  have hm := splitOn_mem_no_sep isSlash p
  cases hs : splitOn isSlash p with
  | nil => rw [hs] at h; simp at h
  | cons w ws =>
    rw [hs] at h hm
    simp only [List.mem_append, List.mem_filterMap] at h
    rcases h with h | ⟨x, hx, h⟩
    · split at h
      · simp at h
      split at h
      · simp at h
      · cases hb : bodyComp w with
        | none => rw [hb] at h; simp at h
        | some y =>
          rw [hb] at h; simp at h; subst h
          exact bodyComp_normal_proper (hm w (by simp)) hb
    · exact bodyComp_normal_proper (hm x (by simp [hx])) h

theorem bodyComp_ne_root (s : Str) : bodyComp s ≠ some .rootDir := by
  unfold bodyComp; split <;> (try split) <;> (try split) <;> simp

theorem rootDir_mem_components (p : Str) : Comp.rootDir ∈ components p ↔ isAbs p = true := by
  unfold components
  cases hs : splitOn isSlash p with
  | nil => exact absurd hs (splitOn_ne_nil _ _)
  | cons w ws =>
    simp only [List.mem_append, List.mem_filterMap]
    constructor
    · rintro (h | ⟨x, _, h⟩)
      · split at h
        · assumption
        split at h
        · simp at h
        · cases hb : bodyComp w with
          | none => rw [hb] at h; simp at h
          | some y => rw [hb] at h; simp at h; subst h; exact absurd hb (bodyComp_ne_root w)
      · exact absurd h (bodyComp_ne_root x)
    · intro h; left; rw [if_pos h]; simp

theorem normalize_fold (cs : List Comp) (hcs : ∀ c, Comp.normal c ∈ cs → ProperComp c)
    (abs : Bool) (st : List Str) (hst : ∀ c ∈ st, ProperComp c) :
    cs.foldl normalizeStep (renderPath abs st) =
        renderPath (abs || cs.contains .rootDir) (cs.foldl resolveStep st) ∧
      ∀ c ∈ cs.foldl resolveStep st, ProperComp c := by
  induction cs generalizing abs st with
  | nil => simpa using hst
  | cons x cs ih =>
    have hcs' : ∀ c, Comp.normal c ∈ cs → ProperComp c := fun c hc => hcs c (by simp [hc])
    cases x with
    | rootDir =>
      have := ih hcs' true [] (by simp)
      simpa [normalizeStep, resolveStep, push, renderPath, isAbs, joinSlash] using this
    | curDir => simpa [normalizeStep, resolveStep] using ih hcs' abs st hst
    | parentDir =>
      have := ih hcs' abs st.dropLast (fun c hc => hst c (List.dropLast_subset st hc))
      simpa [normalizeStep, resolveStep, pop_render abs st hst] using this
    | normal c =>
      have hc := hcs c (by simp)
      have := ih hcs' abs (st ++ [c]) (by
        intro d hd
        rcases List.mem_append.mp hd with hd | hd
        · exact hst d hd
        · simp at hd; subst hd; exact hc)
      simpa [normalizeStep, resolveStep, push_render abs st c hst hc] using this

/-- **C39.** Normalizing yields the path whose components are obtained by resolving `.` and `..` lexically, with the
same root: no `.` or `..` remains, an absolute path stays absolute, and normalizing twice changes nothing. -/
theorem C39_normalize_path (p : Str) :
    normalizePath p = renderPath (isAbs p) (resolve (components p)) ∧
    components (normalizePath p) =
      (if isAbs p then [Comp.rootDir] else []) ++ (resolve (components p)).map Comp.normal ∧
    isAbs (normalizePath p) = isAbs p ∧
    normalizePath (normalizePath p) = normalizePath p := by
  have key : ∀ p, normalizePath p = renderPath (isAbs p) (resolve (components p)) ∧
      ∀ c ∈ resolve (components p), ProperComp c := by
    intro p
    obtain ⟨h1, h2⟩ := normalize_fold (components p) (components_proper p) false [] (by simp)
    refine ⟨?_, h2⟩
    have : (components p).contains .rootDir = isAbs p := by
      rw [Bool.eq_iff_iff, List.contains_iff_mem]; exact rootDir_mem_components p
    rw [this] at h1
    exact h1
  obtain ⟨h1, h2⟩ := key p
  have hc : components (normalizePath p) =
      (if isAbs p then [Comp.rootDir] else []) ++ (resolve (components p)).map Comp.normal := by
    rw [h1]; exact components_render _ _ h2
  have ha : isAbs (normalizePath p) = isAbs p := by rw [h1]; exact renderPath_isAbs _ _ h2
  refine ⟨h1, hc, ha, ?_⟩
  rw [(key (normalizePath p)).1, ha, hc, h1]
  congr 1
  have hres : ∀ (l st : List Str), (l.map Comp.normal).foldl resolveStep st = st ++ l := by
    intro l
    induction l with
    | nil => simp
    | cons a l ih => intro st; simp [resolveStep, ih]
  unfold resolve
  rw [List.foldl_append]
  cases isAbs p <;> simp [hres, resolveStep]

example : normalizePath (str% "/a/./b/../../..//c/") = str% "/c" := by decide

/-- C39 says nothing about where a relative path with leading `..` points: the leading `..` is dropped, so the result
denotes another location. -/
theorem C39_relative_parent_dropped : normalizePath (str% "../a") = str% "a" := by decide

/-! ### C31, C32: the symbol store -/

/-- Where a `.` can be the last one: `after` has none. -/
theorem rsplitDot_append (before after : Str) (h : '.' ∉ after) :
    rsplitDot (before ++ '.' :: after) = some (before, after) := by
  unfold rsplitDot
  have ht : ((before ++ '.' :: after).reverse.takeWhile (· ≠ '.')) = after.reverse := by
    simp only [List.reverse_append, List.reverse_cons, List.append_assoc]
    rw [List.takeWhile_append]
    have h1 : after.reverse.takeWhile (· ≠ '.') = after.reverse := by
      apply takeWhile_all
      intro x hx
      simp only [ne_eq, decide_eq_true_eq]
      intro he; subst he; exact h (by simpa using hx)
    rw [if_pos (by rw [h1]), List.takeWhile_append]
    simp
  rw [ht]
  simp only [List.reverse_reverse]
  rw [if_neg (by simp; omega)]
  have : (before ++ '.' :: after).length - after.length - 1 = before.length := by simp; omega
  rw [this]; simp

theorem rsplitDot_none (s : Str) (h : '.' ∉ s) : rsplitDot s = none := by
  unfold rsplitDot
  have ht : s.reverse.takeWhile (· ≠ '.') = s.reverse := by
    apply takeWhile_all
    intro x hx
    simp only [ne_eq, decide_eq_true_eq]
    intro he; subst he; exact h (by simpa using hx)
  rw [ht]; simp

/-- Every string has no dot or splits at its last dot. -/
theorem split_last_dot (s : Str) : '.' ∉ s ∨ ∃ b a, s = b ++ '.' :: a ∧ '.' ∉ a := by
  induction s with
  | nil => simp
  | cons c s ih =>
    rcases ih with h | ⟨b, a, rfl, ha⟩
    · by_cases hc : c = '.'
      · exact .inr ⟨[], s, by simp [hc], h⟩
      · left; simp; exact ⟨fun h => hc h.symm, h⟩
    · exact .inr ⟨c :: b, a, rfl, ha⟩

theorem components_proper_single (c : Str) (h : ProperComp c) : components c = [.normal c] := by
  have := components_render false [c] (by simpa using h)
  simpa [renderPath, joinSlash] using this

theorem fileName_proper (c : Str) (h : ProperComp c) : fileName c = some c := by
  unfold fileName; rw [components_proper_single c h]; rfl

theorem setExtension_proper (b a ext : Str) (hb : b ≠ []) (ha : '.' ∉ a) (h : ProperComp (b ++ '.' :: a)) (he : ext ≠ []) :
    setExtension (b ++ '.' :: a) ext = b ++ '.' :: ext := by
  unfold setExtension fileStem
  rw [fileName_proper _ h]
  simp only [rsplitDot_append b a ha, if_neg hb, if_neg he]
  have := trimTrail_proper [] _ h
  simp only [List.nil_append] at this
  rw [this]; simp

theorem last_dot_unique {b a b' a' : Str} (h : b ++ '.' :: a = b' ++ '.' :: a') (ha : '.' ∉ a) (ha' : '.' ∉ a') :
    b = b' ∧ a = a' := by
  have h1 := rsplitDot_append b a ha
  rw [h, rsplitDot_append b' a' ha'] at h1
  simp at h1; exact ⟨h1.1.symm, h1.2.symm⟩

theorem getBase_spec (name : Str) (h : ProperComp name) : StoreDirName name (getBase name) := by
  unfold getBase extension
  rw [fileName_proper _ h]
  rcases split_last_dot name with hd | ⟨b, a, rfl, ha⟩
  · simp only [rsplitDot_none _ hd]
    refine .keep _ ?_
    rintro stem ext rfl _ _
    simp at hd
  · simp only [rsplitDot_append b a ha]
    by_cases hb : b = []
    · subst hb
      simp only [if_true]
      refine .keep _ ?_
      intro stem ext heq hst hext
      obtain ⟨rfl, rfl⟩ := last_dot_unique heq ha hext
      exact absurd rfl hst
    · simp only [if_neg hb]
      split
      · rename_i he
        rw [setExtension_proper b a _ hb ha h (by simp)]
        exact .expand b a _ hb ha (by simp [he])
      split
      · rename_i he
        rw [setExtension_proper b a _ hb ha h (by simp)]
        exact .expand b a _ hb ha (by simp [he])
      split
      · rename_i he
        rw [setExtension_proper b a _ hb ha h (by simp)]
        exact .expand b a _ hb ha (by simp [he])
      · rename_i h1 h2 h3
        refine .keep _ ?_
        intro stem ext heq hst hext
        obtain ⟨rfl, rfl⟩ := last_dot_unique heq ha hext
        simp only [List.mem_cons, List.not_mem_nil, or_false, not_or]
        exact ⟨h1, h2, h3⟩

theorem symFileName_spec (name : Str) : StoreFileName name (symFileName name) := by
  unfold symFileName
  rcases split_last_dot name with hd | ⟨b, a, rfl, ha⟩
  · rw [rsplitDot_none _ hd]
    refine .other _ ?_
    rintro stem ext rfl _
    simp at hd
  · rw [rsplitDot_append b a ha]
    simp only
    split
    · exact .pdb b a ha (by assumption)
    · rename_i hne
      refine .other _ ?_
      intro stem ext heq hext
      obtain ⟨rfl, rfl⟩ := last_dot_unique heq ha hext
      exact hne

theorem storeDir_no_slash {name d : Str} (h : StoreDirName name d) (hn : '/' ∉ name) : '/' ∉ d := by
  cases h with
  | expand stem ext new _ _ hm =>
    simp at hn hm ⊢
    rcases hm with ⟨_, rfl⟩ | ⟨_, rfl⟩ | ⟨_, rfl⟩ <;> exact ⟨hn.1, by decide⟩
  | keep => exact hn

theorem storeDir_proper {name d : Str} (h : StoreDirName name d) (hn : ProperComp name) : ProperComp d := by
  refine ⟨?_, storeDir_no_slash h hn.2.1, ?_, ?_⟩
  · cases h with
    | expand => simp
    | keep => exact hn.1
  · cases h with
    | expand stem ext new hs _ hm =>
      intro he
      have := congrArg List.length he
      cases stem with
      | nil => exact hs rfl
      | cons _ _ => simp at this
    | keep => exact hn.2.2.1
  · cases h with
    | expand stem ext new hs _ hm =>
      intro he
      have := congrArg List.length he
      simp at hm
      cases stem with
      | nil => exact hs rfl
      | cons _ _ => rcases hm with ⟨_, rfl⟩ | ⟨_, rfl⟩ | ⟨_, rfl⟩ <;> simp at this
    | keep => exact hn.2.2.2

theorem storeFile_proper {name f : Str} (h : StoreFileName name f) (hn : '/' ∉ name) : ProperComp f := by
  have key : ∀ s : Str, '/' ∉ s → ProperComp (s ++ str% ".sym") := by
    intro s hs
    refine ⟨by simp, by simp [hs], ?_, ?_⟩
    · intro he; have := congrArg List.length he; simp at this
    · intro he; have := congrArg List.length he; simp at this
  cases h with
  | pdb stem ext _ _ => exact key stem (by simp at hn; exact hn.1)
  | other => exact key name hn

theorem storeDir_unique {name d d' : Str} (h : StoreDirName name d) (h' : StoreDirName name d') : d = d' := by
  cases h with
  | expand stem ext new h1 h2 h3 =>
    generalize hn : stem ++ '.' :: ext = n at h'
    cases h' with
    | expand stem' ext' new' k1 k2 k3 =>
      obtain ⟨rfl, rfl⟩ := last_dot_unique hn h2 k2
      simp only [List.mem_cons, Prod.mk.injEq, List.not_mem_nil, or_false] at h3 k3
      rcases h3 with ⟨a, rfl⟩ | ⟨a, rfl⟩ | ⟨a, rfl⟩ <;> rcases k3 with ⟨b, rfl⟩ | ⟨b, rfl⟩ | ⟨b, rfl⟩ <;>
        first | rfl | (rw [a] at b; exact absurd b (by decide))
    | keep _ k =>
      refine absurd ?_ (k stem ext hn.symm h1 h2)
      simp only [List.mem_cons, Prod.mk.injEq, List.not_mem_nil, or_false] at h3 ⊢
      rcases h3 with ⟨a, _⟩ | ⟨a, _⟩ | ⟨a, _⟩ <;> simp [a]
  | keep _ k =>
    cases h' with
    | expand stem ext new h1 h2 h3 =>
      refine absurd ?_ (k stem ext rfl h1 h2)
      simp only [List.mem_cons, Prod.mk.injEq, List.not_mem_nil, or_false] at h3 ⊢
      rcases h3 with ⟨a, _⟩ | ⟨a, _⟩ | ⟨a, _⟩ <;> simp [a]
    | keep => rfl

theorem storeFile_unique {name f f' : Str} (h : StoreFileName name f) (h' : StoreFileName name f') : f = f' := by
  cases h with
  | pdb stem ext h1 h2 =>
    generalize hn : stem ++ '.' :: ext = n at h'
    cases h' with
    | pdb stem' ext' k1 k2 => rw [(last_dot_unique hn h1 k1).1]
    | other _ k => exact absurd h2 (k stem ext hn.symm h1)
  | other _ k =>
    cases h' with
    | pdb stem ext h1 h2 => exact absurd h2 (k stem ext rfl h1)
    | other => rfl

/-- The same for every name without separators. -/
theorem getBase_spec' (name : Str) (h : '/' ∉ name) : StoreDirName name (getBase name) := by
  by_cases hp : ProperComp name
  · exact getBase_spec name hp
  · have h3 : name = [] ∨ name = ['.'] ∨ name = ['.', '.'] := by
      by_cases h1 : name = []
      · exact .inl h1
      by_cases h2 : name = ['.']
      · exact .inr (.inl h2)
      by_cases h3 : name = ['.', '.']
      · exact .inr (.inr h3)
      · exact absurd ⟨h1, h, h2, h3⟩ hp
    have hb : getBase name = name := by rcases h3 with rfl | rfl | rfl <;> decide
    rw [hb]
    refine .keep _ ?_
    rintro stem ext he hs hx
    rcases h3 with rfl | rfl | rfl
    · simp at he
    · cases stem with
      | nil => exact absurd rfl hs
      | cons x xs => simp at he
    · have : ext = [] := by
        have := (last_dot_unique (b := ['.']) (a := []) (b' := stem) (a' := ext) he (by simp) hx).2
        exact this.symm
      subst this
      decide

theorem inStore_iff {dir name id p : Str} (h : '/' ∉ name) : InStore dir name id p ↔ p = push dir (getPathForSym name id) := by
  constructor
  · rintro ⟨d, f, h1, h2, rfl⟩
    rw [storeDir_unique h1 (getBase_spec' name h), storeFile_unique h2 (symFileName_spec name)]; rfl
  · rintro rfl
    exact ⟨_, _, getBase_spec' name h, symFileName_spec name, rfl⟩

/-- **C31.** For a module name that is one proper path component (and an id that is one), the path in the store is
`NAME/ID/FILE` with `NAME` and `FILE` as specified above. -/
theorem C31_store_layout (name id : Str) (hn : ProperComp name) (hid : ProperComp id) :
    ∃ d f, StoreDirName name d ∧ StoreFileName name f ∧ getPathForSym name id = renderPath false [d, id, f] := by
  refine ⟨getBase name, symFileName name, getBase_spec name hn, symFileName_spec name, ?_⟩
  have hd := storeDir_proper (getBase_spec name hn) hn
  have hf := storeFile_proper (symFileName_spec name) hn.2.1
  unfold getPathForSym
  have h1 := push_render false [getBase name] id (by simpa using hd) hid
  have h2 := push_render false [getBase name, id] (symFileName name) (by simp [hd, hid]) hf
  simp only [renderPath, joinSlash, Bool.false_eq_true, if_false, List.cons_append, List.nil_append] at h1 h2 ⊢
  rw [h1, h2]

example : getPathForSym (str% "xul.PD_") (str% "44E4EC8C2F41492B9369D6B9A059577C2") =
    str% "xul.pdb/44E4EC8C2F41492B9369D6B9A059577C2/xul.PD_.sym" := by decide

example : ProperComp (str% "xul.PD_") := by unfold ProperComp; decide

theorem push_components (dir : Str) (d : Str) (cs : List Str) (h : ∀ c ∈ cs, ProperComp c)
    (hd : d ≠ []) (hslash : '/' ∉ d) :
    ∃ c0, components (push dir (joinSlash (d :: cs))) = components dir ++ (c0 ++ cs.map Comp.normal) ∧
      (Comp.parentDir ∈ c0 ↔ d = ['.', '.']) := by
  have hjoin : ∀ pre, pre = joinSlash (d :: cs) → isAbs pre = false := by
    rintro _ rfl
    cases d with
    | nil => exact absurd rfl hd
    | cons x d =>
      have hx : (x == '/') = false := by
        simp only [beq_eq_false_iff_ne, ne_eq]; intro he; exact hslash (by simp [he])
      cases cs with
      | nil => simpa [joinSlash, isAbs_cons] using hx
      | cons e es => rw [joinSlash_cons _ _ (by simp)]; simpa [isAbs_cons] using hx
  have hsplit : splitOn isSlash (joinSlash (d :: cs)) = d :: cs :=
    splitOn_joinSlash _ (by simp) (by
      intro c hc
      rcases List.mem_cons.mp hc with rfl | hc
      · exact hslash
      · exact (h c hc).2.1)
  have hbody : Comp.parentDir ∈ (bodyComp d).toList ↔ d = ['.', '.'] := by
    unfold bodyComp
    rw [if_neg hd]
    split
    · rename_i he; subst he; decide
    split
    · rename_i he; subst he; decide
    · rename_i he; simp [he]
  unfold push
  rw [hjoin _ rfl]
  simp only [Bool.false_eq_true, if_false]
  split
  · rename_i hl
    rcases hl with hl | hl
    · -- empty directory
      rw [List.getLast?_eq_none_iff] at hl
      subst hl
      refine ⟨if d = ['.'] then [.curDir] else (bodyComp d).toList, ?_, ?_⟩
      · unfold components
        rw [List.nil_append, hsplit, hjoin _ rfl]
        simp only [Bool.false_eq_true, if_false, filterMap_bodyComp _ h]
        simp [splitOn, isAbs, bodyComp]
      · split
        · rename_i he; subst he; simp
        · exact hbody
    · -- directory ending with a separator
      obtain ⟨dir', rfl⟩ : ∃ dir', dir = dir' ++ ['/'] := by
        refine ⟨dir.dropLast, ?_⟩
        have hne : dir ≠ [] := by intro h; rw [h] at hl; simp at hl
        rw [List.getLast?_eq_some_getLast hne] at hl
        simp at hl
        rw [← hl]; exact (List.dropLast_concat_getLast hne).symm
      refine ⟨(bodyComp d).toList, ?_, hbody⟩
      by_cases hd' : dir' = []
      · subst hd'
        unfold components
        have e1 : splitOn isSlash ([] ++ ['/'] ++ joinSlash (d :: cs)) = [] :: d :: cs := by
          simp only [List.nil_append, List.cons_append]
          rw [splitOn, if_pos (by rfl), hsplit]
        rw [e1]
        simp only [List.nil_append, List.cons_append, isAbs_cons]
        have e2 : splitOn isSlash ['/'] = [[], []] := by decide
        rw [e2]
        simp only [List.filterMap_cons, filterMap_bodyComp _ h]
        cases hb : bodyComp d <;> simp [bodyComp]
      · have e1 : dir' ++ ['/'] ++ joinSlash (d :: cs) = dir' ++ '/' :: joinSlash (d :: cs) := by simp
        rw [e1, components_append _ _ hd', hsplit]
        have e2 : dir' ++ ['/'] = dir' ++ '/' :: [] := rfl
        rw [e2, components_append _ _ hd']
        simp only [List.filterMap_cons, filterMap_bodyComp _ h]
        have e3 : splitOn isSlash [] = [[]] := rfl
        rw [e3]
        cases hb : bodyComp d <;> simp [bodyComp]
  · rename_i hl
    have hne : dir ≠ [] := by intro h; apply hl; left; rw [h]; rfl
    refine ⟨(bodyComp d).toList, ?_, hbody⟩
    rw [components_append _ _ hne, hsplit]
    simp only [List.filterMap_cons, filterMap_bodyComp _ h]
    cases hb : bodyComp d <;> simp

/-- Where `store` puts a module (src/dumper.rs:74-79): the store directory joined with `get_path_for_sym`. -/
theorem getPathForSym_shape (name id : Str) (hslash : '/' ∉ name) (hid : ProperComp id) :
    getPathForSym name id = joinSlash ((if name = [] then [] else [getBase name]) ++ [id, symFileName name]) ∧
      (name ≠ [] → getBase name ≠ [] ∧ '/' ∉ getBase name ∧ (getBase name = ['.', '.'] ↔ name = ['.', '.'])) := by
  have hf := storeFile_proper (symFileName_spec name) hslash
  by_cases hp : ProperComp name
  · have hd := storeDir_proper (getBase_spec name hp) hp
    constructor
    · have h1 := push_render false [getBase name] id (by simpa using hd) hid
      have h2 := push_render false [getBase name, id] (symFileName name) (by simp [hd, hid]) hf
      simp only [renderPath, joinSlash, Bool.false_eq_true, if_false, List.cons_append, List.nil_append] at h1 h2
      unfold getPathForSym
      rw [h1, h2, if_neg hp.1]; rfl
    · intro _
      exact ⟨hd.1, hd.2.1, ⟨fun h => absurd h hd.2.2.2, fun h => absurd h hp.2.2.2⟩⟩
  · have h3 : name = [] ∨ name = ['.'] ∨ name = ['.', '.'] := by
      by_cases h1 : name = []
      · exact .inl h1
      by_cases h2 : name = ['.']
      · exact .inr (.inl h2)
      by_cases h3 : name = ['.', '.']
      · exact .inr (.inr h3)
      · exact absurd ⟨h1, hslash, h2, h3⟩ hp
    have hlast : ∀ s : Str, push (s ++ id) (symFileName name) = s ++ id ++ '/' :: symFileName name := by
      intro s
      unfold push
      rw [proper_head hf]
      simp only [Bool.false_eq_true, if_false]
      obtain ⟨x, hx, hx2⟩ := joinSlash_getLast [id] (by simp) (by simpa using hid)
      simp only [joinSlash] at hx
      have hl : (s ++ id).getLast? = some x := by rw [List.getLast?_append, hx]; rfl
      rw [if_neg (by rw [hl]; simp [hx2])]
    have hpid := proper_head hid
    rcases h3 with rfl | rfl | rfl
    · refine ⟨?_, fun h => absurd rfl h⟩
      have : getPathForSym [] id = push (push [] id) (symFileName []) := rfl
      rw [this]
      have e : push [] id = [] ++ id := by unfold push; rw [hpid]; simp
      rw [e, hlast]; rfl
    · refine ⟨?_, fun _ => by decide⟩
      have : getPathForSym ['.'] id = push (push ['.'] id) (symFileName ['.']) := rfl
      rw [this]
      have e : push ['.'] id = str% "./" ++ id := by unfold push; rw [hpid]; simp
      rw [e, hlast]
      have : getBase ['.'] = ['.'] := by decide
      simp [joinSlash, this]
    · refine ⟨?_, fun _ => by decide⟩
      have : getPathForSym ['.', '.'] id = push (push ['.', '.'] id) (symFileName ['.', '.']) := rfl
      rw [this]
      have e : push ['.', '.'] id = str% "../" ++ id := by unfold push; rw [hpid]; simp
      rw [e, hlast]
      have : getBase ['.', '.'] = ['.', '.'] := by decide
      simp [joinSlash, this]

/-- **C32 (exact form).** For a module name without `/` (as `file_name_only` produces) and a proper id, the file is
written below the store directory exactly when the module name is not `..`. -/
theorem C32_store_contained_iff (dir name id : Str) (hslash : '/' ∉ name) (hid : ProperComp id) :
    Below dir (push dir (getPathForSym name id)) ↔ name ≠ ['.', '.'] := by
  obtain ⟨h1, h2⟩ := getPathForSym_shape name id hslash hid
  have hf := storeFile_proper (symFileName_spec name) hslash
  rw [h1]
  by_cases hn : name = []
  · rw [if_pos hn]
    obtain ⟨c0, hc, hp⟩ := push_components dir id [symFileName name] (by simpa using hf) hid.1 hid.2.1
    simp only [List.nil_append]
    constructor
    · intro _ h; rw [hn] at h; cases h
    · intro _
      refine ⟨_, hc, by simp, ?_⟩
      simp only [List.mem_append, not_or]
      refine ⟨fun h => hid.2.2.2 (hp.mp h), by simp⟩
  · rw [if_neg hn]
    obtain ⟨hb1, hb2, hb3⟩ := h2 hn
    obtain ⟨c0, hc, hp⟩ := push_components dir (getBase name) [id, symFileName name] (by simp [hid, hf]) hb1 hb2
    simp only [List.cons_append, List.nil_append]
    constructor
    · rintro ⟨rest, hr, _, hnp⟩ heq
      rw [hc] at hr
      have := List.append_cancel_left hr
      rw [← this] at hnp
      apply hnp
      rw [List.mem_append]; left; rw [hp, hb3]; exact heq
    · intro hne
      refine ⟨_, hc, by simp, ?_⟩
      simp only [List.mem_append, not_or]
      refine ⟨fun h => hne (hb3.mp (hp.mp h)), by simp⟩

/-- **C32 (partial).** The claim holds for every module name without `/` other than `..`.  Missing: a module named `..`
(see `C32_store_escape_witness`). -/
theorem C32_store_contained_partial (dir name id : Str) (hslash : '/' ∉ name) (hid : ProperComp id)
    (hn : name ≠ ['.', '.']) : Below dir (push dir (getPathForSym name id)) :=
  (C32_store_contained_iff dir name id hslash hid).mpr hn

example : Below (str% "/store") (push (str% "/store") (getPathForSym (str% "libxul.so") (str% "ABC0"))) :=
  C32_store_contained_partial _ _ _ (by decide) (by unfold ProperComp; decide) (by decide)

/-- **C32 is false**: a module named `..` is written outside the store directory. -/
theorem C32_store_escape_witness :
    push (str% "/store") (getPathForSym (str% "..") (str% "ABC0")) = str% "/store/../ABC0/...sym" ∧
    ¬ Below (str% "/store") (push (str% "/store") (getPathForSym (str% "..") (str% "ABC0"))) := by
  refine ⟨by decide, ?_⟩
  rw [C32_store_contained_iff _ _ _ (by decide) (by unfold ProperComp; decide)]
  decide

/-! ### C40: joining -/

theorem trimStart_spec (p : Char → Bool) (s : Str) :
    ∃ h, s = h ++ trimStart p s ∧ (∀ c ∈ h, p c = true) ∧ ∀ c, (trimStart p s).head? = some c → p c = false := by
  unfold trimStart
  induction s with
  | nil => exact ⟨[], rfl, by simp, by simp⟩
  | cons x s ih =>
    rw [List.dropWhile_cons]
    by_cases hx : p x = true
    · rw [if_pos hx]
      obtain ⟨h, h1, h2, h3⟩ := ih
      refine ⟨x :: h, by rw [List.cons_append, ← h1], ?_, h3⟩
      intro c hc
      rcases List.mem_cons.mp hc with rfl | hc
      · exact hx
      · exact h2 c hc
    · rw [if_neg hx]
      exact ⟨[], rfl, by simp, by intro c hc; simp at hc; subst hc; simpa using hx⟩

theorem trimEnd_spec (p : Char → Bool) (s : Str) :
    ∃ t, s = trimEnd p s ++ t ∧ (∀ c ∈ t, p c = true) ∧ ∀ c, (trimEnd p s).getLast? = some c → p c = false := by
  obtain ⟨h, h1, h2, h3⟩ := trimStart_spec p s.reverse
  unfold trimStart at h1 h3
  refine ⟨h.reverse, ?_, by simpa using h2, ?_⟩
  · unfold trimEnd
    have := congrArg List.reverse h1
    simpa using this
  · intro c hc
    apply h3
    unfold trimEnd at hc
    simpa using hc

/-- **C40 (shape).** Joining keeps the directory without its trailing separators and the name without its leading ones,
with one separator between them, which is `/` except for a Windows path whose left side does not start with `/`. -/
theorem C40_join_paths (pl : Platform) (left right : Str) : Joins pl left right (pl.joinPaths left right) := by
  have unix : pl ≠ .win → ∀ c, (c == '/') = true ↔ IsSep pl c := by
    intro h c; simp [IsSep, h]
  have win : pl = .win → ∀ c, Platform.isWinSep c = true ↔ IsSep pl c := by
    intro h c; simp [IsSep, h, Platform.isWinSep]
  have unix' : pl ≠ .win → ∀ c, (c == '/') = false → ¬ IsSep pl c := by
    intro h c hc hs; rw [(unix h c).mpr hs] at hc; cases hc
  have win' : pl = .win → ∀ c, Platform.isWinSep c = false → ¬ IsSep pl c := by
    intro h c hc hs; rw [(win h c).mpr hs] at hc; cases hc
  cases pl with
  | linux =>
    obtain ⟨t, h1, h2, h3⟩ := trimEnd_spec (· == '/') left
    obtain ⟨h, g1, g2, g3⟩ := trimStart_spec (· == '/') right
    refine ⟨_, t, h, _, h1, g1, fun c hc => (unix (by simp) c).mp (h2 c hc), fun c hc => (unix (by simp) c).mp (g2 c hc),
      fun c hc => unix' (by simp) c (h3 c hc), fun c hc => unix' (by simp) c (g3 c hc), ?_⟩
    simp [Platform.joinPaths]
  | mac =>
    obtain ⟨t, h1, h2, h3⟩ := trimEnd_spec (· == '/') left
    obtain ⟨h, g1, g2, g3⟩ := trimStart_spec (· == '/') right
    refine ⟨_, t, h, _, h1, g1, fun c hc => (unix (by simp) c).mp (h2 c hc), fun c hc => (unix (by simp) c).mp (g2 c hc),
      fun c hc => unix' (by simp) c (h3 c hc), fun c hc => unix' (by simp) c (g3 c hc), ?_⟩
    simp [Platform.joinPaths]
  | win =>
    obtain ⟨t, h1, h2, h3⟩ := trimEnd_spec Platform.isWinSep left
    obtain ⟨h, g1, g2, g3⟩ := trimStart_spec Platform.isWinSep right
    refine ⟨_, t, h, _, h1, g1, fun c hc => (win rfl c).mp (h2 c hc), fun c hc => (win rfl c).mp (g2 c hc),
      fun c hc => win' rfl c (h3 c hc), fun c hc => win' rfl c (g3 c hc), ?_⟩
    simp only [Platform.joinPaths, true_and, beq_iff_eq]
    by_cases hh : (trimEnd Platform.isWinSep left).head? = some '/'
    · rw [if_pos hh, if_neg (by simp [hh])]
    · rw [if_neg hh, if_pos hh]

example : Platform.win.joinPaths (str% "C:\\src\\/") (str% "/\\a.c") = str% "C:\\src\\a.c" := by decide

theorem takeWhile_split {α : Type} (p : α → Bool) (l : List α) :
    ∃ rest, l = l.takeWhile p ++ rest ∧ (∀ c ∈ l.takeWhile p, p c = true) ∧ ∀ c, rest.head? = some c → p c = false := by
  induction l with
  | nil => exact ⟨[], rfl, by simp, by simp⟩
  | cons a l ih =>
    rw [List.takeWhile_cons]
    by_cases h : p a = true
    · rw [if_pos h]
      obtain ⟨r, h1, h2, h3⟩ := ih
      refine ⟨r, by rw [List.cons_append, ← h1], ?_, h3⟩
      intro c hc
      rcases List.mem_cons.mp hc with rfl | hc
      · exact h
      · exact h2 c hc
    · rw [if_neg h]
      exact ⟨a :: l, rfl, by simp, by intro c hc; simp at hc; subst hc; simpa using h⟩

theorem takeWhile_unique {α : Type} (p : α → Bool) (a rest : List α) (ha : ∀ c ∈ a, p c = true)
    (hr : ∀ c, rest.head? = some c → p c = false) : (a ++ rest).takeWhile p = a := by
  induction a with
  | nil =>
    cases rest with
    | nil => rfl
    | cons x r => rw [List.nil_append, List.takeWhile_cons, if_neg (by simp [hr x rfl])]
  | cons x a ih =>
    rw [List.cons_append, List.takeWhile_cons, if_pos (ha x (by simp)), ih (fun c hc => ha c (by simp [hc]))]

theorem isWinSep_iff (c : Char) : Platform.isWinSep c = true ↔ IsSep .win c := by
  simp [Platform.isWinSep, IsSep]

/-- **C40 (absolute paths).** `is_absolute_path` decides `IsAbsolute`, except that for Windows it takes the empty path for an absolute
one. -/
theorem C40_is_absolute (pl : Platform) (path : Str) :
    pl.isAbsolutePath path = true ↔ IsAbsolute pl path ∨ (pl = .win ∧ path = []) := by
  have unix : (path.head? == some '/') = true ↔ ∃ rest, path = '/' :: rest := by
    cases path with
    | nil => simp
    | cons c p => simp
  cases pl with
  | linux => simpa [IsAbsolute, Platform.isAbsolutePath] using unix
  | mac => simpa [IsAbsolute, Platform.isAbsolutePath] using unix
  | win =>
    unfold Platform.isAbsolutePath IsAbsolute
    simp only [Bool.or_eq_true, List.isEmpty_iff, beq_iff_eq, true_and]
    constructor
    · intro h
      obtain ⟨rest, h1, h2, h3⟩ := takeWhile_split (fun c => !Platform.isWinSep c) path
      have h3' : ∀ c, rest.head? = some c → IsSep .win c := fun c hc => by
        have := h3 c hc
        rw [← isWinSep_iff]; simpa using this
      rcases h with h | h
      · rw [h] at h1
        cases rest with
        | nil => exact .inr h1
        | cons x r => exact .inl (.inl ⟨x, r, h1, h3' x rfl⟩)
      · left; right
        obtain ⟨ini, hini⟩ := List.getLast?_eq_some_iff.mp h
        refine ⟨ini, rest, ?_, ?_, h3'⟩
        · rw [hini] at h1; simpa using h1
        · intro c hc hs
          have := h2 c (by rw [hini]; simp [hc])
          rw [(isWinSep_iff c).mpr hs] at this; simp at this
    · rintro ((⟨c, rest, rfl, hc⟩ | ⟨drive, rest, rfl, h2, h3⟩) | rfl)
      · left
        simp [(isWinSep_iff c).mpr hc]
      · right
        have : (drive ++ ':' :: rest).takeWhile (fun c => !Platform.isWinSep c) = drive ++ [':'] := by
          have := takeWhile_unique (fun c => !Platform.isWinSep c) (drive ++ [':']) rest (by
            intro c hc
            rcases List.mem_append.mp hc with hc | hc
            · have := h2 c hc
              rw [← isWinSep_iff] at this; simpa using this
            · simp at hc; subst hc; decide) (by
            intro c hc
            have := h3 c hc
            rw [← isWinSep_iff] at this; simp [this])
          simpa using this
        rw [this]; simp
      · left; rfl

/-- **C40 (absolute paths).** Joining anything to an absolute directory gives an absolute path. -/
theorem C40_join_absolute (pl : Platform) (left right : Str) (h : IsAbsolute pl left) :
    IsAbsolute pl (pl.joinPaths left right) := by
  obtain ⟨l, t, hh, r, e1, e2, ht, _, hl, _, ej⟩ := C40_join_paths pl left right
  rw [ej]
  have unix : pl ≠ .win → (∃ rest, left = '/' :: rest) → ∃ rest, l ++ '/' :: r = '/' :: rest := by
    rintro hp ⟨rest, hr⟩
    cases l with
    | nil => exact ⟨r, rfl⟩
    | cons x l => rw [hr] at e1; simp at e1; exact ⟨l ++ '/' :: r, by simp [← e1.1]⟩
  cases pl with
  | linux => simpa [IsAbsolute] using unix (by simp) h
  | mac => simpa [IsAbsolute] using unix (by simp) h
  | win =>
    rcases h with ⟨c, rest, e3, hc⟩ | ⟨drive, rest, e3, h2, h3⟩
    · left
      cases l with
      | nil => exact ⟨_, r, rfl, by split <;> simp [IsSep]⟩
      | cons x l =>
        rw [e1] at e3
        simp at e3
        exact ⟨x, _, rfl, e3.1 ▸ hc⟩
    right
    have hf2 : ∀ x ∈ drive ++ [':'], ¬ IsSep .win x := by
      intro x hx
      rcases List.mem_append.mp hx with hx | hx
      · exact h2 x hx
      · simp at hx; subst hx; simp [IsSep]
    have e3 : left = (drive ++ [':']) ++ rest := by simpa using e3
    generalize hfr : drive ++ [':'] = frag at e3 hf2
    by_cases hlen : frag.length ≤ l.length
    · -- the fragment survives
      have hpre : ∃ l', l = frag ++ l' := by
        have hcat : frag ++ rest = l ++ t := by rw [← e3, e1]
        rcases List.append_eq_append_iff.mp hcat with ⟨a, ha, _⟩ | ⟨a, ha, _⟩
        · exact ⟨a, ha⟩
        · have : a = [] := by
            have := congrArg List.length ha
            simp at this
            exact List.eq_nil_of_length_eq_zero (by omega)
          subst this
          exact ⟨[], by simpa using ha.symm⟩
      obtain ⟨l', rfl⟩ := hpre
      refine ⟨drive, l' ++ _ :: r, by rw [← hfr]; simp only [List.append_assoc, List.cons_append, List.nil_append]; rfl, h2, ?_⟩
      cases l' with
      | nil => intro c hc; simp at hc; subst hc; split <;> simp [IsSep]
      | cons x l'' =>
        have hcat : frag ++ rest = frag ++ (x :: l'') ++ t := by rw [← e3, e1]
        rw [List.append_assoc] at hcat
        have := List.append_cancel_left hcat
        intro c hc
        exact h3 c (by rw [this]; simpa using hc)
    · -- `l` is shorter than the fragment: impossible, fragments contain no separator
      exfalso
      have hcat : frag ++ rest = l ++ t := by rw [← e3, e1]
      rcases List.append_eq_append_iff.mp hcat with ⟨a, ha, _⟩ | ⟨a, ha, hb⟩
      · have := congrArg List.length ha; simp at this; omega
      · cases a with
        | nil => have := congrArg List.length ha; simp at this; omega
        | cons x a =>
          have hx1 : x ∈ t := by rw [hb]; simp
          have hx2 : x ∈ frag := by rw [ha]; simp
          exact hf2 x hx2 (ht x hx1)

example : IsAbsolute .win (str% "D:\\src") := ((C40_is_absolute _ _).mp (by decide)).resolve_right (by decide)

/-- Joining to an empty directory on Linux/Mac makes a relative name absolute: `join_paths("", "a.c")` is `/a.c`. -/
theorem C40_empty_directory_becomes_root : Platform.linux.joinPaths [] (str% "a.c") = str% "/a.c" := by decide

end DumpSyms
