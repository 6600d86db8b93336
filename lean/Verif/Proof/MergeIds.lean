import Verif.Model.ObjectInfo
/-!
# Merging any two objects: the debug ids decide whether it is refused, and the result keeps the debug id
-/
namespace DumpSyms
open ObjectInfo

/-- Not an error (a panic is allowed). -/
def Res.NoErr {α : Type} (r : Res α) : Prop := ∀ m, r ≠ .err m

theorem Res.NoErr.ok {α : Type} (a : α) : (Res.ok a).NoErr := fun _ h => by cases h
theorem Res.NoErr.panic {α : Type} : (Res.panic : Res α).NoErr := fun _ h => by cases h
theorem Res.NoErr.bind {α β : Type} {r : Res α} {f : α → Res β} (h : r.NoErr) (hf : ∀ a, (f a).NoErr) : (r >>= f).NoErr := by
  cases r with
  | ok a => exact hf a
  | err m => exact absurd rfl (h m)
  | panic => exact .panic

theorem index_noErr (t : List Nat) (i : Nat) : (Symbol.index t i).NoErr := by
  unfold Symbol.index; split
  · exact .ok _
  · exact .panic

theorem remapLineList_noErr (t : List Nat) (ls : List Line) : (Symbol.remapLineList t ls).NoErr := by
  induction ls with
  | nil => exact .ok _
  | cons l ls ih => exact (index_noErr _ _).bind fun f => ih.bind fun _ => .ok _

theorem remapSite_noErr (t : Option (List Nat)) (o : List Nat) (x : InlineSite) : (Symbol.remapSite t o x).NoErr := by
  unfold Symbol.remapSite
  cases t with
  | none => exact (Res.NoErr.ok _).bind fun _ => (index_noErr _ _).bind fun _ => .ok _
  | some t => exact (index_noErr _ _).bind fun _ => (index_noErr _ _).bind fun _ => .ok _

theorem remapInlineList_noErr (t : Option (List Nat)) (o : List Nat) (l : List (InlineSite × List IRange))
    (acc : SMap InlineSite (List IRange)) : (Symbol.remapInlineList t o l acc).NoErr := by
  induction l generalizing acc with
  | nil => exact .ok _
  | cons e l ih => exact (remapSite_noErr _ _ _).bind fun _ => ih _

theorem remapSym_noErr (t : Option (List Nat)) (o : List Nat) (s : Symbol) : (remapSym t o s).NoErr := by
  unfold remapSym
  refine Res.NoErr.bind ?_ fun s => ?_
  · unfold Symbol.remapLines
    cases t with
    | none => exact .ok _
    | some t => exact (remapLineList_noErr _ _).bind fun _ => .ok _
  · exact (remapInlineList_noErr _ _ _ _).bind fun _ => .ok _

theorem mergeFunc_noErr (t : Option (List Nat)) (o : List Nat) (l : Symbols) (a : Nat) (s : Symbol) :
    (mergeFunc t o l a s).NoErr := by
  unfold mergeFunc
  split
  · split
    · exact (remapSym_noErr _ _ _).bind fun _ => .ok _
    · exact .ok _
  · exact (remapSym_noErr _ _ _).bind fun _ => .ok _

theorem mergeSyms_noErr (t : Option (List Nat)) (o : List Nat) (r : List (Nat × Symbol)) (l : Symbols) :
    (mergeSyms t o r l).NoErr := by
  induction r generalizing l with
  | nil => exact .ok _
  | cons e r ih =>
    obtain ⟨a, s⟩ := e
    simp only [mergeSyms]
    split
    · exact ih _
    · exact (mergeFunc_noErr _ _ _ _ _).bind fun _ => ih _

theorem mergeLoop_noErr (a : List (Str × Nat)) (b : List Str) (l : List (Str × Nat)) (r : List Nat) (i : List Str) :
    (SourceMap.mergeLoop a b l r i).NoErr := by
  induction l generalizing r i with
  | nil => exact .ok _
  | cons e l ih =>
    obtain ⟨p, id⟩ := e
    simp only [SourceMap.mergeLoop]
    split
    · split
      · exact ih _ _
      · split
        · exact .panic
        · exact ih _ _
    · exact .panic

theorem filesMerge_noErr (order : List (Str × Nat) → List (Str × Nat)) (a b : SourceMap) : (a.merge order b).NoErr := by
  unfold SourceMap.merge
  split
  · exact .ok _
  · split
    · exact .ok _
    · exact (mergeLoop_noErr _ _ _ _ _).bind fun _ => .ok _

theorem mergeInto_noErr (order : List (Str × Nat) → List (Str × Nat)) (l r : ObjectInfo) : (mergeInto order l r).NoErr :=
  (filesMerge_noErr _ _ _).bind fun _ => (mergeSyms_noErr _ _ _ _).bind fun _ => .ok _

theorem mergeInto_id {order : List (Str × Nat) → List (Str × Nat)} {l r o : ObjectInfo} (h : mergeInto order l r = .ok o) :
    o.debugId = l.debugId := by
  unfold mergeInto at h
  generalize l.files.merge order r.files = x at h
  cases x with
  | ok x =>
    obtain ⟨fs, t⟩ := x
    simp only [Res.bind_ok] at h
    generalize mergeSyms t (InlineOrigins.merge l.inlineOrigins r.inlineOrigins).2 r.symbols l.symbols = y at h
    cases y with
    | ok y => simp only [Res.bind_ok, Res.ok.injEq] at h; subst h; rfl
    | err m => cases h
    | panic => cases h
  | err m => cases h
  | panic => cases h

/-- A merge is refused only for different debug ids. -/
theorem merge_err {order : List (Str × Nat) → List (Str × Nat)} {l r : ObjectInfo} {m : Str}
    (h : ObjectInfo.merge order l r = .err m) : l.debugId ≠ r.debugId := by
  unfold ObjectInfo.merge at h
  split at h
  · assumption
  · exact absurd h (mergeInto_noErr _ _ _ _)

theorem merge_ok {order : List (Str × Nat) → List (Str × Nat)} {l r c : ObjectInfo} (h : ObjectInfo.merge order l r = .ok c) :
    l.debugId = r.debugId ∧ c.debugId = l.debugId := by
  unfold ObjectInfo.merge at h
  split at h
  · cases h
  · rename_i hd
    have hd := Decidable.not_not.mp hd
    refine ⟨hd, ?_⟩
    rw [mergeInto_id h]
    unfold bySize
    split
    · rfl
    · exact hd.symm

end DumpSyms
