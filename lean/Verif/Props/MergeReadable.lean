import Verif.Props.Symbolicate
/-!
# C83, merging: the merge of readable modules is readable
-/
namespace DumpSyms
open ObjectInfo Collector Reader

/-- The symbols of a merge have names of the merged ones. -/
theorem mergeSyms_names {fr : Option (List Nat)} {orm : List Nat} {P : Str → Prop} :
    ∀ {right : List (Nat × Symbol)} {left m : Symbols}, mergeSyms fr orm right left = .ok m → (∀ e ∈ left, P e.2.name) →
      (∀ e ∈ right, P e.2.name) → ∀ e ∈ m, P e.2.name
  | [], left, m, h, hl, _ => by cases h; exact hl
  | (addr, sym) :: rest, left, m, h, hl, hr => by
    have hins : ∀ s : Symbol, P s.name → ∀ e ∈ left.insert addr s, P e.2.name := by
      intro s hs e he
      rcases SMap.mem_insert he with rfl | he
      · exact hs
      · exact hl e he
    have hget : ∀ s, left.get? addr = some s → P s.name := fun s hs => hl _ (SMap.mem_of_get? hs)
    have hsym : P sym.name := hr (addr, sym) (by simp)
    have hremap : ∀ s, remapSym fr orm sym = .ok s → s.name = sym.name := by
      intro s hs
      unfold remapSym at hs
      cases h1 : sym.remapLines fr with
      | err m => rw [h1] at hs; cases hs
      | panic => rw [h1] at hs; cases hs
      | ok s1 =>
        rw [h1] at hs
        simp only [Res.bind_ok] at hs
        have e1 : s1.name = sym.name := by
          unfold Symbol.remapLines at h1
          split at h1
          · cases h1; rfl
          · generalize hx : Symbol.remapLineList _ _ = x at h1
            cases x <;> cases h1; rfl
        have e2 : s.name = s1.name := by
          unfold Symbol.remapInlines at hs
          generalize hx : Symbol.remapInlineList _ _ _ _ = x at hs
          cases x <;> cases hs; rfl
        rw [e2, e1]
    unfold mergeSyms at h
    split at h
    · refine mergeSyms_names h ?_ (fun e he => hr e (by simp [he]))
      unfold mergePublic
      split
      · exact hl
      · split
        · rename_i e he
          split
          · exact hl
          · split
            · exact hins _ hsym
            · split
              · exact hins { e with isMultiple := true } (hget e he)
              · exact hl
        · exact hins _ hsym
    · cases hf : mergeFunc fr orm left addr sym with
      | err m => rw [hf] at h; cases h
      | panic => rw [hf] at h; cases h
      | ok left' =>
        rw [hf] at h
        refine mergeSyms_names h ?_ (fun e he => hr e (by simp [he]))
        unfold mergeFunc at hf
        split at hf
        · rename_i a ha
          split at hf
          · cases hx : remapSym fr orm sym with
            | err m => rw [hx] at hf; cases hf
            | panic => rw [hx] at hf; cases hf
            | ok s => rw [hx] at hf; cases hf; exact hins _ (by rw [← hremap s hx] at hsym; exact hsym)
          · cases hf; exact hins _ (hget a ha)
        · cases hx : remapSym fr orm sym with
          | err m => rw [hx] at hf; cases hf
          | panic => rw [hx] at hf; cases hf
          | ok s => rw [hx] at hf; cases hf; exact hins _ (by rw [← hremap s hx] at hsym; exact hsym)

/-- The FILE paths of a merge are those of the merged ones. -/
theorem mergeLoop_paths {sr : List (Str × Nat)} {oi : List Str} {P : Str → Prop} (ho : ∀ p ∈ oi, P p) :
    ∀ {l : List (Str × Nat)} {remap : List Nat} {ids : List Str} {r : List Nat × List Str},
      SourceMap.mergeLoop sr oi l remap ids = .ok r → (∀ p ∈ ids, P p) → ∀ p ∈ r.2, P p
  | [], _, _, _, h, hi => by cases h; exact hi
  | (path, id) :: rest, remap, ids, r, h, hi => by
    unfold SourceMap.mergeLoop at h
    split at h
    · split at h
      · exact mergeLoop_paths ho h hi
      · split at h
        · cases h
        · rename_i p hp
          refine mergeLoop_paths ho h ?_
          intro q hq
          rcases List.mem_append.mp hq with hq | hq
          · exact hi q hq
          · rw [List.mem_singleton.mp hq]; exact ho p (List.mem_of_getElem? hp)
    · cases h

theorem merge_paths {order : List (Str × Nat) → List (Str × Nat)} {a b : SourceMap} {r : SourceMap × Option (List Nat)} {P : Str → Prop}
    (h : SourceMap.merge order a b = .ok r) (ha : ∀ p ∈ a.getMapping, P p) (hb : ∀ p ∈ b.getMapping, P p) :
    ∀ p ∈ r.1.getMapping, P p := by
  unfold SourceMap.merge at h
  split at h
  · cases h; exact ha
  · split at h
    · cases h; exact hb
    · generalize hx : SourceMap.mergeLoop _ _ _ _ _ = x at h
      cases x with
      | ok y => cases h; exact mergeLoop_paths hb hx ha
      | err m => cases h
      | panic => cases h

theorem mergeInto_readable {order : List (Str × Nat) → List (Str × Nat)} {L R M : ObjectInfo} {extra : List Str} (hL : L.Readable extra)
    (hR : R.Readable extra) (h : mergeInto order L R = .ok M) : M.Readable extra := by
  unfold mergeInto at h
  cases h1 : L.files.merge order R.files with
  | err m => rw [h1] at h; cases h
  | panic => rw [h1] at h; cases h
  | ok f =>
    rw [h1] at h
    simp only [Res.bind_ok] at h
    cases h2 : mergeSyms f.2 (InlineOrigins.merge L.inlineOrigins R.inlineOrigins).2 R.symbols L.symbols with
    | err m => rw [h2] at h; cases h
    | panic => rw [h2] at h; cases h
    | ok s =>
      rw [h2] at h
      cases h
      refine ⟨hL.cpu, hL.debugId, ?_, merge_paths h1 hL.files hR.files, ?_, mergeSyms_names (P := fun n => '\n' ∉ n) h2 hL.names hR.names, ?_, hL.peName,
        hL.extraLines, ?_, ?_⟩
      · show '\n' ∉ (if R.binType = .stripped then R.fileName else L.fileName)
        split
        · exact hR.fileName
        · exact hL.fileName
      · show ∀ n ∈ (InlineOrigins.merge L.inlineOrigins R.inlineOrigins).1, '\n' ∉ n
        unfold InlineOrigins.merge
        split
        · exact hL.origins
        · split
          · exact hR.origins
          · intro n hn
            rcases List.mem_append.mp hn with hn | hn
            · exact hL.origins n hn
            · exact hR.origins n hn
      · intro c hc
        have hc : L.codeId.or R.codeId = some c := hc
        cases hx : L.codeId with
        | none => rw [hx] at hc; exact hR.codeId c (by simpa using hc)
        | some d => rw [hx] at hc; exact hL.codeId c (by rw [hx]; simpa using hc)
      · intro hn
        exact hL.extraCode (Option.or_eq_none_iff.mp hn).1
      · obtain ⟨a, a1, a2⟩ := hL.stack
        obtain ⟨b, b1, b2⟩ := hR.stack
        refine ⟨a ++ b, ?_, ?_⟩
        · show mergeStack L.stack R.stack = _
          unfold mergeStack
          rw [List.flatMap_append, ← a1, ← b1]
          split
          · rename_i e; rw [e]; rfl
          · split
            · rename_i e; rw [e]; simp
            · have hlast : L.stack.getLast? = some '\n' := by
                rename_i hne _
                rw [a1] at hne ⊢
                rcases List.eq_nil_or_concat a with rfl | ⟨i, x, rfl⟩
                · exact absurd rfl hne
                · rw [List.concat_eq_append, List.flatMap_append, List.flatMap_cons, List.flatMap_nil, List.append_nil, ← List.append_assoc]
                  exact List.getLast?_concat
              rw [if_pos hlast]
        · intro x hx
          rcases List.mem_append.mp hx with hx | hx
          · exact a2 x hx
          · exact b2 x hx

/-- **C83, merging.** The merge of two modules that can be read back can be read back. -/
theorem C83_merged (order : List (Str × Nat) → List (Str × Nat)) (l r M : ObjectInfo) (extra : List Str) (hl : l.Readable extra)
    (hr : r.Readable extra) (h : ObjectInfo.merge order l r = .ok M) : M.Readable extra := by
  unfold ObjectInfo.merge at h
  split at h
  · cases h
  · unfold bySize at h
    split at h
    · exact mergeInto_readable hl hr h
    · exact mergeInto_readable hr hl h

end DumpSyms
