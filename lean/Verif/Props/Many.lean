import Verif.Props.SeveralSamples
/-!
# C125: any number of files with one debug id

Two inputs with one debug id are C85. With three or more, a merged module can be the smaller one in the next merge, and its table of paths is then not complete
(`C22_three_way_witness`). That does no harm when at most two of the inputs refer to source files: until the second of them is merged the table is complete, and
after that no other table is merged with it.
-/
namespace DumpSyms
open ObjectInfo Collector Reader Symbols

/-- When one of two tables has no files, the merged one is the other. -/
theorem merge_empty {order : List (Str × Nat) → List (Str × Nat)} {L R F : SourceMap} {t : Option (List Nat)} (h : SourceMap.merge order L R = .ok (F, t)) :
    (R.idToRef = [] → F = L) ∧ (L.idToRef = [] → R.idToRef ≠ [] → F = R) := by
  unfold SourceMap.merge at h
  refine ⟨fun h1 => ?_, fun h1 h2 => ?_⟩
  · rw [if_pos h1] at h; cases h; rfl
  · rw [if_neg h2, if_pos h1] at h; cases h; rfl

theorem complete_empty {s : SourceMap} (h : s.idToRef = []) : s.Complete := by intro i hi; simp [h] at hi

theorem SameHeader.trans {a b c : Symbol} (h : a.SameHeader b) (h' : b.SameHeader c) : a.SameHeader c :=
  ⟨h.1.trans h'.1, h.2.1.trans h'.2.1, h.2.2.1.trans h'.2.2.1, h.2.2.2.1.trans h'.2.2.2.1, h.2.2.2.2.1.trans h'.2.2.2.2.1, h.2.2.2.2.2.trans h'.2.2.2.2.2⟩

theorem SameRecords.trans {o p q : ObjectInfo} {a b c : Symbol} (h : SameRecords o a p b) (h' : SameRecords p b q c) : SameRecords o a q c :=
  ⟨h.1.trans h'.1, h.2.trans h'.2⟩

namespace Run
open Dumper

/-- The input refers to source files. -/
def Input.Sources (x : Input) : Prop := ∃ f c r, some f ∈ x.fs ∧ Func.Refers f c r

/-- What a module keeps of the dumps it is made of. -/
structure Kept (dumps : Nat → ObjectInfo → Prop) (rename : Str → Str) (l : List Nat) (c : ObjectInfo) : Prop where
  good : c.Good
  follows : c.files.Follows rename
  complete : c.files.Complete ∨ ∃ i ∈ l, ∃ j ∈ l, i ≠ j ∧ (∃ m, dumps i m ∧ m.files.idToRef ≠ []) ∧ ∃ m, dumps j m ∧ m.files.idToRef ≠ []
  sources : c.files.idToRef ≠ [] → ∃ i ∈ l, ∃ m, dumps i m ∧ m.files.idToRef ≠ []
  starts : ∀ b s, c.symbols.get? b = some s → s.isPublic = false → ∃ i ∈ l, ∃ m y, dumps i m ∧ m.symbols.get? b = some y ∧ y.isPublic = false
  keeps : ∀ i ∈ l, ∀ m, dumps i m → ∀ addr s, m.symbols.get? addr = some s → s.isPublic = false → s.isSynthetic = false →
    (∀ j ∈ l, j ≠ i → ∀ m', dumps j m' → ∀ y, m'.symbols.get? addr = some y → y.isPublic = true) →
    ∃ s', c.symbols.get? addr = some s' ∧ s'.SameHeader s ∧ SameRecords c s' m s

/-- A dump is merged with a module. -/
theorem Kept.merge {dumps : Nat → ObjectInfo → Prop} (hone : ∀ {i m m'}, dumps i m → dumps i m' → m = m') {rename : Str → Str} {i : Nat} {l : List Nat}
    {m p c : ObjectInfo} {order : List (Str × Nat) → List (Str × Nat)} (ho : IterOrder order) (hi : dumps i m) (hil : i ∉ l)
    (g : m.Good) (hfo : m.files.Follows rename) (hco : m.files.Complete) (hp : Kept dumps rename l p)
    (he : m.files.idToRef = [] ∨ p.files.Complete) (hf : m.files.getMapping.length + p.files.getMapping.length ≤ M32)
    (hor : m.inlineOrigins.length + p.inlineOrigins.length < M32) (hd : m.debugId = p.debugId) (hc : ObjectInfo.merge order m p = .ok c) :
    Kept dumps rename (i :: l) c := by
  have key : ∃ L R, (L = m ∧ R = p ∨ L = p ∧ R = m) ∧ mergeInto order L R = .ok c := by
    by_cases hlt : p.symbols.length < m.symbols.length
    · exact ⟨m, p, .inl ⟨rfl, rfl⟩, by rw [← Larger.merge (l := m) (r := p) (.inl ⟨hlt, rfl, rfl⟩) hd]; exact hc⟩
    · exact ⟨p, m, .inr ⟨rfl, rfl⟩, by rw [← Larger.merge (l := m) (r := p) (.inr ⟨by omega, rfl, rfl⟩) hd]; exact hc⟩
  obtain ⟨L, R, hLR, hM⟩ := key
  have gL : L.Good ∧ L.files.Follows rename := by
    rcases hLR with ⟨rfl, rfl⟩ | ⟨rfl, rfl⟩
    · exact ⟨g, hfo⟩
    · exact ⟨hp.good, hp.follows⟩
  have gR : R.Good ∧ R.files.Follows rename := by
    rcases hLR with ⟨rfl, rfl⟩ | ⟨rfl, rfl⟩
    · exact ⟨hp.good, hp.follows⟩
    · exact ⟨g, hfo⟩
  have hf' : L.files.getMapping.length + R.files.getMapping.length ≤ M32 := by rcases hLR with ⟨rfl, rfl⟩ | ⟨rfl, rfl⟩ <;> omega
  have hor' : L.inlineOrigins.length + R.inlineOrigins.length < M32 := by rcases hLR with ⟨rfl, rfl⟩ | ⟨rfl, rfl⟩ <;> omega
  have he' : R.files.Complete ∨ L.files.idToRef = [] := by
    rcases hLR with ⟨rfl, rfl⟩ | ⟨rfl, rfl⟩
    · exact he.symm
    · exact .inl hco
  obtain ⟨M', t, m1, m2, m3, _⟩ := mergeInto_spec ho gL.1 gR.1 hf' hor'
  rw [hM] at m1; cases m1
  obtain ⟨F, t', b1, _, _, _, _, b2, _⟩ := SourceMap.merge_spec ho gL.1.files gR.1.files hf'
  rw [m3] at b1; cases b1
  obtain ⟨c1, c2⟩ := merge_empty m3
  have empty : (m.files.idToRef = [] → c.files = p.files ∨ c.files.idToRef = []) ∧ (p.files.idToRef = [] → c.files = m.files ∨ c.files.idToRef = []) := by
    rcases hLR with ⟨rfl, rfl⟩ | ⟨rfl, rfl⟩
    · refine ⟨fun h => ?_, fun h => .inl (c1 h)⟩
      by_cases h' : R.files.idToRef = []
      · rw [c1 h']; exact .inr h
      · exact .inl (c2 h h')
    · refine ⟨fun h => .inl (c1 h), fun h => ?_⟩
      by_cases h' : R.files.idToRef = []
      · rw [c1 h']; exact .inr h
      · exact .inl (c2 h h')
  obtain ⟨M', n1, n2⟩ := complete_records ho gL.1 gL.2 gR.1 gR.2 he' hf' hor'
  rw [hM] at n1; cases n1
  have left := fun a => complete_left ho gL.1 gL.2 gR.1 gR.2 he' hf' hor' hM (a := a)
  refine ⟨m2, b2 _ gL.2 gR.2, ?_, ?_, ?_, ?_⟩
  · by_cases h1 : m.files.idToRef = []
    · rcases empty.1 h1 with h | h
      · rw [h]
        rcases hp.complete with h2 | ⟨a, ha, b, hb, h2⟩
        · exact .inl h2
        · exact .inr ⟨a, by simp [ha], b, by simp [hb], h2⟩
      · exact .inl (complete_empty h)
    · by_cases h2 : p.files.idToRef = []
      · rcases empty.2 h2 with h | h
        · rw [h]; exact .inl hco
        · exact .inl (complete_empty h)
      · obtain ⟨j, hj, m', e1, e2⟩ := hp.sources h2
        exact .inr ⟨i, by simp, j, by simp [hj], fun e => hil (e ▸ hj), ⟨m, hi, h1⟩, m', e1, e2⟩
  · intro hne
    have : m.files.idToRef ≠ [] ∨ p.files.idToRef ≠ [] := by
      by_cases h1 : m.files.idToRef = []
      · refine .inr fun h2 => hne ?_
        rcases empty.1 h1 with h | h
        · rw [h, h2]
        · exact h
      · exact .inl h1
    rcases this with h | h
    · exact ⟨i, by simp, m, hi, h⟩
    · obtain ⟨j, hj, m', h1, h2⟩ := hp.sources h
      exact ⟨j, by simp [hj], m', h1, h2⟩
  · intro b s hs hpub
    obtain ⟨x, hx, hx'⟩ := n2 b s hs
    rw [hx.2.1] at hpub
    have : m.symbols.get? b = some x ∨ p.symbols.get? b = some x := by
      rcases hLR with ⟨rfl, rfl⟩ | ⟨rfl, rfl⟩ <;> rcases hx' with ⟨h, _⟩ | ⟨h, _⟩ <;> simp [h]
    rcases this with h | h
    · exact ⟨i, by simp, m, x, hi, h, hpub⟩
    · obtain ⟨j, hj, m', y, h1, h2, h3⟩ := hp.starts b x h hpub
      exact ⟨j, by simp [hj], m', y, h1, h2, h3⟩
  · intro j hj mj hmj addr s hs hpub hsyn hothers
    -- what is kept of an object with the symbol, when the other one has no FUNC there
    have keep : ∀ (a b : ObjectInfo) (s0 : Symbol), (L = a ∧ R = b ∨ L = b ∧ R = a) → a.symbols.get? addr = some s0 → s0.isPublic = false →
        s0.isSynthetic = false → (∀ y, b.symbols.get? addr = some y → y.isPublic = true) →
        ∃ s', c.symbols.get? addr = some s' ∧ s'.SameHeader s0 ∧ SameRecords c s' a s0 := by
      rintro a b s0 (⟨rfl, rfl⟩ | ⟨rfl, rfl⟩) e1 e2 e3 e4
      · obtain ⟨x, d1, d2⟩ := (left addr).1 s0 e1 e2 (fun _ _ => .inr e3)
        exact ⟨_, d1, ⟨rfl, rfl, rfl, rfl, rfl, rfl⟩, d2⟩
      · exact (left addr).2 s0 e1 e2 e4
    by_cases hji : j = i
    · subst hji
      cases hone hmj hi
      refine keep m p s hLR hs hpub hsyn ?_
      intro y hy
      cases hyp : y.isPublic with
      | true => rfl
      | false =>
        obtain ⟨j', hj', m', y', h1, h2, h3⟩ := hp.starts addr y hy hyp
        rw [hothers j' (by simp [hj']) (fun e => hil (e ▸ hj')) m' h1 y' h2] at h3
        cases h3
    · have hjl : j ∈ l := by simpa [hji] using hj
      obtain ⟨s', h1, h2, h3⟩ := hp.keeps j hjl mj hmj addr s hs hpub hsyn (fun j' hj' hne => hothers j' (by simp [hj']) hne)
      obtain ⟨s'', k1, k2, k3⟩ := keep p m s' (by rcases hLR with h | h <;> simp [h]) h1 (by rw [h2.2.1]; exact hpub) (by rw [h2.2.2.1]; exact hsyn)
        (fun y hy => hothers i (by simp) (fun e => hji e.symm) m hi y hy)
      exact ⟨s'', k1, SameHeader.trans k2 h2, SameRecords.trans k3 h3⟩

/-- At most two of the inputs with the numbers refer to source files. -/
def TwoSources (inputs : List Input) (l : List Nat) : Prop :=
  ∀ i ∈ l, ∀ j ∈ l, ∀ k ∈ l, ∀ x y z : Input, inputs[i]? = some x → inputs[j]? = some y → inputs[k]? = some z →
    x.Sources → y.Sources → z.Sources → i = j ∨ i = k ∨ j = k

/-- The dump of an input that refers to no source files has no FILE records. -/
theorem no_files {env : Env} {mapping : Option (List Mapping.Generator)} {rules : List Mapping.Rule} {inlines : Bool} {infos : List Str} {x : Input}
    (hx : x.Clear env mapping infos) (hlines : ∀ l ∈ infos, OneLine l) {m : ObjectInfo} (hm : x.Dumps env mapping inlines m)
    (hdump : ∃ m text file, x.Dumps env mapping inlines m ∧ m.display (some infos) = .ok text ∧
      readSymFile text = some file ∧ (x.source env mapping rules inlines).Describes infos file) (hs : ¬ x.Sources) : m.files.idToRef = [] := by
  obtain ⟨m', text, file, d, h1, h2, h3⟩ := hdump
  cases Res.ok.inj (hm.symm.trans d)
  obtain ⟨g, r, _⟩ := dump_sound hx hlines hm
  obtain ⟨text', file', a1, a2, _, _, _, a3, _⟩ := read_display (extra := some infos) r (fun e he => (g.inlines _ _ (SMap.get?_of_mem g.sorted he)).2)
  rw [h1] at a1; cases a1
  rw [h2] at a2; cases a2
  cases hl : m.files.idToRef with
  | nil => rfl
  | cons p ps =>
    exfalso
    have : (0, p) ∈ file.files := by
      rw [a3]
      simp [SourceMap.getMapping, hl, enumFrom]
    obtain ⟨f, c, r, k1, k2, _⟩ := h3.files _ _ this
    exact hs ⟨f, c, r, k1, k2⟩

/-- A module made of inputs of which at most two refer to source files keeps what they have. -/
theorem Possible.kept {env : Env} {mapping : Option (List Mapping.Generator)} {rules : List Mapping.Rule} {infos : List Str} {inlines : Bool}
    {tables : List Nat → List (Str × Nat) → List (Str × Nat)} (htab : ∀ l, IterOrder (tables l)) {inputs : List Input}
    (hx : ∀ x ∈ inputs, x.Clear env mapping infos) (hlines : ∀ l ∈ infos, OneLine l) {k : Nat}
    (hsize : ∀ x ∈ inputs, ∀ m, x.Dumps env mapping inlines m → m.files.getMapping.length ≤ k ∧ m.inlineOrigins.length ≤ k)
    (hk : k * inputs.length < M32)
    (hdump : ∀ x ∈ inputs, ∃ m text file, x.Dumps env mapping inlines m ∧ m.display (some infos) = .ok text ∧
      readSymFile text = some file ∧ (x.source env mapping rules inlines).Describes infos file)
    {rename : Str → Str} {l : List Nat} {c : ObjectInfo} (h : Possible env mapping inlines tables inputs l c)
    (hren : ∀ i ∈ l, ∀ x, inputs[i]? = some x → ∀ p, ((x.cenv env mapping).src.mapping p).getD p = rename p) (htwo : TwoSources inputs l) :
    Kept (fun i m => ∃ x, inputs[i]? = some x ∧ x.Dumps env mapping inlines m) rename l c := by
  have spec : ∀ (i : Nat) (x : Input) (m : ObjectInfo), inputs[i]? = some x → x.Dumps env mapping inlines m → (∀ p, ((x.cenv env mapping).src.mapping p).getD p = rename p) →
      m.Good ∧ m.files.Follows rename ∧ m.files.Complete := by
    intro i x m hi hm hr
    obtain ⟨mem, U, V, ok⟩ := (hx x (List.mem_of_getElem? hi)).ok
    have u : DumpedUnder (x.cenv env mapping).src.mapping m := ⟨_, mem, U, V, _, _, _, _, _, _, _, ok, rfl, hm⟩
    have e : (fun p => ((x.cenv env mapping).src.mapping p).getD p) = rename := funext hr
    have := u.spec
    rw [e] at this
    exact this
  induction h with
  | one i x m hi hm =>
    obtain ⟨g1, g2, g3⟩ := spec i x m hi hm (hren i (by simp) x hi)
    have same : ∀ {m'}, (∃ x, inputs[i]? = some x ∧ x.Dumps env mapping inlines m') → m' = m := by
      rintro m' ⟨x', e1, e2⟩
      rw [hi] at e1; cases e1
      exact Res.ok.inj (e2.symm.trans hm)
    refine ⟨g1, g2, .inl g3, fun h => ⟨i, by simp, m, ⟨x, hi, hm⟩, h⟩, fun b s h1 h2 => ⟨i, by simp, m, s, ⟨x, hi, hm⟩, h1, h2⟩, ?_⟩
    intro j hj m' hm' addr s hs _ _ _
    simp only [List.mem_singleton] at hj
    subst hj
    cases same hm'
    exact ⟨s, hs, ⟨rfl, rfl, rfl, rfl, rfl, rfl⟩, rfl, .refl _⟩
  | more i l x m p c hi hm hl hp hc ih =>
    obtain ⟨g1, g2, g3⟩ := spec i x m hi hm (hren i (by simp) x hi)
    have kp := ih (fun j hj => hren j (by simp [hj])) (fun a ha b hb d hd => htwo a (by simp [ha]) b (by simp [hb]) d (by simp [hd]))
    have sp := hp.sound htab hx hlines hsize hk
    have sc := (Possible.more i l x m p c hi hm hl hp hc).sound htab hx hlines hsize hk
    obtain ⟨b1, b2⟩ := hsize x (List.mem_of_getElem? hi) m hm
    have hlen : (i :: l).length ≤ inputs.length := by
      have := List.Nodup.length_le_of_subset sc.nodup (l₂ := List.range inputs.length) (fun j hj => List.mem_range.mpr (sc.bound j hj))
      simpa using this
    have hmul : k * l.length + k ≤ k * inputs.length := by
      have := Nat.mul_le_mul_left k hlen
      simpa [Nat.mul_add] using this
    have hd : m.debugId = p.debugId := by
      unfold ObjectInfo.merge at hc
      by_cases hne : m.debugId ≠ p.debugId
      · rw [if_pos hne] at hc; cases hc
      · exact Decidable.not_not.mp hne
    refine Kept.merge ?_ (htab _) ⟨x, hi, hm⟩ hl g1 g2 g3 kp ?_ ?_ ?_ hd hc
    · rintro j a a' ⟨x1, e1, e2⟩ ⟨x2, e3, e4⟩
      rw [e1] at e3; cases e3
      exact Res.ok.inj (e2.symm.trans e4)
    · by_cases hxs : x.Sources
      · refine .inr (kp.complete.resolve_right ?_)
        rintro ⟨j, hj, n, hn, hne, ⟨m1, ⟨y, e1, e2⟩, e3⟩, m2, ⟨z, f1, f2⟩, f3⟩
        have hys : y.Sources := Classical.byContradiction fun h =>
          e3 (no_files (hx y (List.mem_of_getElem? e1)) hlines e2 (hdump y (List.mem_of_getElem? e1)) h)
        have hzs : z.Sources := Classical.byContradiction fun h =>
          f3 (no_files (hx z (List.mem_of_getElem? f1)) hlines f2 (hdump z (List.mem_of_getElem? f1)) h)
        rcases htwo i (by simp) j (by simp [hj]) n (by simp [hn]) x y z hi e1 f1 hxs hys hzs with h | h | h
        · exact hl (h ▸ hj)
        · exact hl (h ▸ hn)
        · exact hne h
      · exact .inl (no_files (hx x (List.mem_of_getElem? hi)) hlines hm (hdump x (List.mem_of_getElem? hi)) hxs)
    · have := sp.files
      simp only [SourceMap.getMapping] at *
      omega
    · have := sp.origins
      omega

/-- What the text made of inputs of which at most two refer to source files says of the functions of one of them. -/
theorem many_answers {env : Env} {mapping : Option (List Mapping.Generator)} {rules : List Mapping.Rule} {infos : List Str} {inlines : Bool}
    {tables : List Nat → List (Str × Nat) → List (Str × Nat)} (htab : ∀ l, IterOrder (tables l)) {inputs : List Input}
    (hx : ∀ x ∈ inputs, x.Clear env mapping infos) (hlines : ∀ l ∈ infos, OneLine l) {k : Nat}
    (hsize : ∀ x ∈ inputs, ∀ m, x.Dumps env mapping inlines m → m.files.getMapping.length ≤ k ∧ m.inlineOrigins.length ≤ k)
    (hk : k * inputs.length < M32)
    (hdump : ∀ x ∈ inputs, ∃ m text file, x.Dumps env mapping inlines m ∧ m.display (some infos) = .ok text ∧
      readSymFile text = some file ∧ (x.source env mapping rules inlines).Describes infos file)
    (hmaps : ∀ platform obj p, ((Dumper.cenv env platform mapping obj).src.mapPanics p = true ↔ Mapping.Unreadable env.map rules p) ∧
      (¬ Mapping.Unreadable env.map rules p → ∀ r, Mapping.MapsTo env.map rules p r ↔
        r = ((Dumper.cenv env platform mapping obj).src.mapping p).getD p))
    {l : List Nat} {c : ObjectInfo} (h : Possible env mapping inlines tables inputs l c) (htwo : TwoSources inputs l)
    (hopts : mapping = none ∨ ∃ b, ∀ i ∈ l, ∀ x, inputs[i]? = some x → x.opts = b)
    {text : Str} {file : SymFile} (h3 : c.display (some infos) = .ok text) (h4 : readSymFile text = some file)
    {i : Nat} (hil : i ∈ l) {x : Input} (hi : inputs[i]? = some x) :
    (x.source env mapping rules inlines).Answers
      (fun addr a => ∀ j ∈ l, j ≠ i → ∀ y, inputs[j]? = some y → ∀ b, addr ≤ b → b ≤ a → ¬ y.StartsAt b) file.framesAt := by
  have hxm := List.mem_of_getElem? hi
  obtain ⟨mx, tx, fx, dx, px, qx, sx⟩ := hdump x hxm
  have hren : ∀ j ∈ l, ∀ y, inputs[j]? = some y → ∀ p, ((y.cenv env mapping).src.mapping p).getD p = ((x.cenv env mapping).src.mapping p).getD p := by
    intro j hj y hy p
    rcases hopts with e | ⟨b, hb⟩
    · subst e; simp only [Input.cenv, ite_self]; rfl
    · have : y.opts = x.opts := (hb j hj y hy).trans (hb i hil x hi).symm
      simp only [Input.cenv, this]; rfl
  have kept := h.kept htab hx hlines hsize hk hdump hren htwo
  have sc := h.sound htab hx hlines hsize hk
  obtain ⟨mem, U, V, okx⟩ := (hx x hxm).ok
  obtain ⟨gx, rx, _⟩ := dump_sound (hx x hxm) hlines dx
  obtain ⟨textM, fileM, a1, a2, _, _, _, a3, a4, a5, _⟩ := read_display (extra := some infos) sc.readable (fun e he =>
    (sc.good.inlines _ _ (SMap.get?_of_mem sc.good.sorted he)).2)
  rw [h3] at a1; cases a1
  rw [h4] at a2; cases a2
  obtain ⟨tx', fx', b1, b2, _, _, _, b3, b4, b5, _⟩ := read_display (extra := some infos) rx (fun e he =>
    (gx.inlines _ _ (SMap.get?_of_mem gx.sorted he)).2)
  rw [px] at b1; cases b1
  rw [qx] at b2; cases b2
  -- a FUNC of another input is a start of a function of it
  have start : ∀ (j : Nat) (y : Input) (m' : ObjectInfo) (b : Nat) (s : Symbol), inputs[j]? = some y → y.Dumps env mapping inlines m' → m'.symbols.get? b = some s → s.isPublic = false → y.StartsAt b := by
    intro j y m' b s hy dm hs hp
    have hym := List.mem_of_getElem? hy
    obtain ⟨my, ty, fy, dy, py, qy, sy⟩ := hdump y hym
    cases Res.ok.inj (dm.symm.trans dy)
    obtain ⟨gy, ry, _⟩ := dump_sound (hx y hym) hlines dy
    obtain ⟨ty', fy', n1, n2, _, _, _, _, _, n5, _⟩ := read_display (extra := some infos) ry (fun e he =>
      (gy.inlines _ _ (SMap.get?_of_mem gy.sorted he)).2)
    rw [py] at n1; cases n1
    rw [qy] at n2; cases n2
    have e1 : symOf s ∈ fy.symbols := by rw [n5]; exact List.mem_map.mpr ⟨(b, s), SMap.mem_of_get? hs, rfl⟩
    have e2 : (symOf s).rva = b := by refine Eq.trans ?_ (gy.keyed b s hs).1; unfold symOf; split <;> rfl
    have e3 : (symOf s).isPublic = false := by unfold symOf; simp [hp]
    rw [← e2]
    exact startsAt_of_record sy e1 e3
  have ans := answers_of okx dx (extra := infos) rx (hx x hxm).embeds px qx (frames := file.framesAt)
    (on := fun addr a => ∀ j ∈ l, j ≠ i → ∀ y, inputs[j]? = some y → ∀ b, addr ≤ b → b ≤ a → ¬ y.StartsAt b) (by
      intro addr a rec s hon hs hsyn hfa hrva hclear
      obtain ⟨addr', s1, c1, c2, rfl, c3, c4, c5, c6⟩ := funcAt_some b5 gx.sorted gx.keyed hfa
      have : addr' = addr := by rw [← c3, hrva]
      subst this
      rw [hs] at c1; cases c1
      obtain ⟨s', d1, d2, d3⟩ := kept.keeps i hil mx ⟨x, hi, dx⟩ addr' s hs c2 hsyn (by
        rintro j hj hne m' ⟨y, hy, dm⟩ y' hy'
        cases hyp : y'.isPublic with
        | true => rfl
        | false => exact absurd (start j y m' addr' y' hy dm hy' hyp) (hon j hj hne y hy addr' (Nat.le_refl _) c4))
      have hp' : s'.isPublic = false := by rw [d2.2.1]; exact c2
      have hfunc := funcAt_read (a := a) a5 sc.good.sorted sc.good.keyed d1 hp' c4 (by rw [d2.2.2.2.2.1]; exact c5) (by
        intro b z e1 e2 hz
        cases hzp : z.isPublic with
        | true => rfl
        | false =>
          obtain ⟨j, hj, m', z', ⟨y, hy, dm⟩, h1, h2⟩ := kept.starts b z hz hzp
          by_cases hji : j = i
          · subst hji
            rw [hi] at hy; cases hy
            cases Res.ok.inj (dm.symm.trans dx)
            rw [c6 b z' e1 e2 h1] at h2; cases h2
          · exact absurd (start j y m' b z' hy dm h1 h2) (hon j hj hji y hy b (Nat.le_of_lt e1) e2))
      unfold SymFile.framesAt
      rw [hfunc, hfa]
      simp only [Option.map_some, Option.some.injEq]
      have hnm : ∀ x : Symbol, (symOf x).name = x.name := by intro x; unfold symOf; split <;> rfl
      refine (frames_same (by rw [hnm, hnm, d2.1]) hclear ?_ ?_).symm
      · exact (inlinesOf_symOf c2 b3 b4).trans ((d3.2.symm.map _).trans (inlinesOf_symOf hp' a3 a4).symm)
      · rw [linesOf_symOf c2 b3, linesOf_symOf hp' a3, d3.1])
  exact ans.prints (prints_mapped okx (hmaps x.platform x.obj))

/-- **C125, where at most two of the inputs with the debug id refer to source files.** The place of the debug id in the store holds one text for all inputs
that have it, however many.  Looking up an address of a function of any of them finds what its debug information says, unless a function of another one
starts from the start of the function to the address. -/
theorem C125_many_partial (env : Env) (version : Str) (cpus : Nat) (o : Options) (inputs : List Input) (w : Cache.World) (orders : Orders)
    (mapping : Option (List Mapping.Generator)) (arch : Str) (k : Nat) (dir : Str)
    (hrun : Several env version o inputs w orders mapping arch k dir) (out : Output.World) :
    ∃ rules, Mapping.Configured env.map o.mappingVar o.mappingSrc o.mappingDest o.mappingFile rules ∧
      ∀ code out', Exits env version cpus o w orders out code out' → code = 0 ∧
        ∀ id, (∃ x ∈ inputs, x.obj.debugId = id) →
          (∀ (i j k : Nat) (x y z : Input), inputs[i]? = some x → inputs[j]? = some y → inputs[k]? = some z →
            x.obj.debugId = id → y.obj.debugId = id → z.obj.debugId = id → x.Sources → y.Sources → z.Sources → i = j ∨ i = k ∨ j = k) →
          (mapping = none ∨ ∃ b, ∀ x ∈ inputs, x.obj.debugId = id → x.opts = b) →
          ∃ text file p os cpu name, readSymFile text = some file ∧ file.modules = [(os, cpu, id, name)] ∧
            InStore dir name id p ∧ out'.files p = some (Utf8.encode text) ∧
            ∀ (i : Nat) (x : Input), inputs[i]? = some x → x.obj.debugId = id →
              (x.source env mapping rules o.inlines).Answers (fun addr a => ∀ (j : Nat) (y : Input), inputs[j]? = some y → y.obj.debugId = id → j ≠ i →
                ∀ b, addr ≤ b → b ≤ a → ¬ y.StartsAt b) file.framesAt := by
  obtain ⟨rules0, _, hmain⟩ := C85_several env version cpus o inputs w orders mapping arch k dir hrun out
  obtain ⟨c, rules, g⟩ := hrun.goes cpus out
  refine ⟨rules, g.configured, ?_⟩
  intro code out' hex
  obtain ⟨hcode, hmain⟩ := hmain code out' hex
  refine ⟨hcode, ?_⟩
  rintro id ⟨x0, hx0, rfl⟩ htwo hopts
  obtain ⟨i0, hi0⟩ := List.getElem?_of_mem hx0
  obtain ⟨l, m, text, file, p, os, cpu, name, h1, h2, h3, h4, h5, h6, h7, _⟩ := hmain i0 x0 hi0
  refine ⟨text, file, p, os, cpu, name, h4, h5, h6, h7, ?_⟩
  intro i x hi hid
  have hmem : ∀ (j : Nat) (y : Input), inputs[j]? = some y → j ∈ l → y.obj.debugId = x0.obj.debugId := by
    intro j y hy hj
    obtain ⟨y', e1, e2⟩ := (h2 j).mp hj
    rw [hy] at e1; cases e1
    exact e2
  refine (many_answers hrun.hashes (fun x hm => (hrun.each w .start x hm).clear) hrun.lines hrun.size hrun.below g.dump g.maps h1
    (fun a ha b hb d hd x y z hx hy hz => htwo a b d x y z hx hy hz (hmem a x hx ha) (hmem b y hy hb) (hmem d z hz hd)) ?_ h3 h4 ((h2 i).mpr ⟨x, hi, hid⟩) hi).mono ?_
  · rcases hopts with e | ⟨b, hb⟩
    · exact .inl e
    · exact .inr ⟨b, fun j hj y hy => hb y (List.mem_of_getElem? hy) (hmem j y hy hj)⟩
  · intro addr a hon j hj hne y hy
    exact hon j y hy (hmem j y hy hj) hne

/-- **C125, without a store.** If all inputs have one debug id, every destination asked for holds one text, with the frames of each of them. -/
theorem C125_one_id_partial (env : Env) (version : Str) (cpus : Nat) (o : Options) (inputs : List Input) (w : Cache.World) (orders : Orders)
    (mapping : Option (List Mapping.Generator)) (arch : Str) (k : Nat)
    (hrun : Workable env version o inputs w orders mapping arch k) (hsome : inputs ≠ []) (id : Str) (hid : ∀ x ∈ inputs, x.obj.debugId = id)
    (htwo : ∀ (i j k : Nat) (x y z : Input), inputs[i]? = some x → inputs[j]? = some y → inputs[k]? = some z →
      x.Sources → y.Sources → z.Sources → i = j ∨ i = k ∨ j = k)
    (hopts : mapping = none ∨ ∃ b, ∀ x ∈ inputs, x.opts = b) (out : Output.World) :
    ∃ rules, Mapping.Configured env.map o.mappingVar o.mappingSrc o.mappingDest o.mappingFile rules ∧
      ∀ code out', Exits env version cpus o w orders out code out' → code = 0 ∧
        ∃ text file os cpu name, readSymFile text = some file ∧ file.modules = [(os, cpu, id, name)] ∧
          (∀ fo, Destination o name id fo → Output.Holds out out' fo (Utf8.encode text)) ∧
          ∀ (i : Nat) (x : Input), inputs[i]? = some x →
            (x.source env mapping rules o.inlines).Answers (fun addr a => ∀ (j : Nat) (y : Input), inputs[j]? = some y → j ≠ i →
              ∀ b, addr ≤ b → b ≤ a → ¬ y.StartsAt b) file.framesAt := by
  obtain ⟨c, rules, g⟩ := hrun.goes cpus out
  refine ⟨rules, g.configured, ?_⟩
  intro code out' hex
  obtain ⟨hcode, l, m, text, file, os, cpu, name, h1, h2, h3, h4, h5, h6⟩ := C85_one_id env version cpus o inputs w orders mapping arch k hrun hsome id
    hid out code out' hex
  refine ⟨hcode, text, file, os, cpu, name, h4, h5, h6, ?_⟩
  intro i x hi
  refine (many_answers hrun.hashes (fun x hm => (hrun.each w .start x hm).clear) hrun.lines hrun.size hrun.below g.dump g.maps h1
    (fun a _ b _ d _ x y z hx hy hz => htwo a b d x y z hx hy hz) ?_ h3 h4 ((h2 i).mpr (List.getElem?_eq_some_iff.mp hi).1) hi).mono ?_
  · rcases hopts with e | ⟨b, hb⟩
    · exact .inl e
    · exact .inr ⟨b, fun j _ y hy => hb y (List.mem_of_getElem? hy)⟩
  · intro addr a hon j _ hne y hy
    exact hon j y hy hne

end Run
end DumpSyms
