import Verif.Spec.Crash
import Verif.Proof.Line
import Verif.Proof.Mini
import Verif.Proof.Dumped
import Verif.Props.WinName
import Verif.Proof.Errless
/-!
# When the collection of an object crashes

Nothing is assumed of the object.
-/
namespace DumpSyms

/-- If the outcome is a panic, `P` holds; if it is a result, `Q` holds of it. -/
structure Res.Guards {α : Type} (P : Prop) (r : Res α) (Q : α → Prop) : Prop where
  panics : r = .panic → P
  gives : ∀ a, r = .ok a → Q a

namespace Res
variable {α β : Type} {P : Prop}

theorem Guards.ok {Q : α → Prop} {a : α} (h : Q a) : (Res.ok a).Guards P Q := ⟨(fun e => by cases e), fun b e => by cases e; exact h⟩

theorem Guards.panic {Q : α → Prop} (h : P) : (Res.panic : Res α).Guards P Q := ⟨fun _ => h, fun b e => by cases e⟩

theorem Guards.err {Q : α → Prop} {m : Str} : (Res.err m : Res α).Guards P Q := ⟨(fun e => by cases e), fun b e => by cases e⟩

theorem Guards.bind {r : Res α} {f : α → Res β} {Q : α → Prop} {R : β → Prop} (h : r.Guards P Q) (hf : ∀ a, Q a → (f a).Guards P R) :
    (r >>= f).Guards P R := by
  cases r with
  | ok a => exact hf a (h.gives a rfl)
  | err m => exact .err
  | panic => exact .panic (h.panics rfl)

theorem Guards.imp {r : Res α} {Q Q' : α → Prop} (h : r.Guards P Q) (hq : ∀ a, Q a → Q' a) : r.Guards P Q' :=
  ⟨h.panics, fun a e => hq a (h.gives a e)⟩

theorem ok_of_bind {r : Res α} {f : α → Res β} {b : β} (h : (r >>= f) = .ok b) : ∃ a, r = .ok a ∧ f a = .ok b := by
  cases r with
  | ok a => exact ⟨a, rfl, h⟩
  | err m => cases h
  | panic => cases h

end Res
open Res

/-- Ids handed out are in the table. -/
structure SourceFiles.IdsIn (s : SourceFiles) : Prop where
  paths : ∀ p id, s.refToId.lookup p = some id → id < s.fakeIdToRef.length
  cached : ∀ k id, s.cache.lookup k = some id → id < s.fakeIdToRef.length

theorem SourceFiles.idsIn_new : SourceFiles.new.IdsIn := ⟨(fun p id h => by cases h), fun k id h => by cases h⟩

theorem u32_le (n : Nat) : u32 n ≤ n := Nat.mod_le _ _

theorem getId_guards {P : Prop} {env : SrcEnv} {s : SourceFiles} (hs : s.IdsIn) (comp : ByteSlice) (f : FileInfo)
    (hp : env.mapPanics (SourceFiles.getPath env comp f) = true → P) :
    (s.getId env comp f).Guards P fun x => x.2.IdsIn ∧ x.1 < x.2.fakeIdToRef.length := by
  unfold SourceFiles.getId
  split
  · rename_i id h
    exact .ok ⟨hs, hs.cached _ _ h⟩
  · refine Guards.bind (Q := fun x => x.2.IdsIn ∧ x.1 < x.2.fakeIdToRef.length) ?_ ?_
    · unfold SourceFiles.getIdOfPath
      split
      · rename_i id h
        exact .ok ⟨hs, hs.paths _ _ h⟩
      · dsimp only
        split
        · rename_i h; exact .panic (hp h)
        · have hid : u32 s.fakeIdToRef.length < (s.fakeIdToRef ++ [((none : Option Nat), (env.mapping (SourceFiles.getPath env comp f)).getD
              (SourceFiles.getPath env comp f))]).length := by
            have := u32_le s.fakeIdToRef.length
            simp only [List.length_append, List.length_cons, List.length_nil]
            omega
          refine .ok ⟨⟨?_, ?_⟩, hid⟩
          · intro p id h
            simp only [List.lookup] at h
            split at h
            · cases h; exact hid
            · have := hs.paths _ _ h
              simp only [List.length_append, List.length_cons, List.length_nil]
              omega
          · intro k id h
            have := hs.cached _ _ h
            simp only [List.length_append, List.length_cons, List.length_nil]
            omega
    · rintro ⟨id, s'⟩ ⟨h1, h2⟩
      refine .ok ⟨⟨h1.paths, ?_⟩, h2⟩
      intro k id' h
      simp only [List.lookup] at h
      split at h
      · cases h; exact h2
      · exact h1.cached _ _ h

theorem getTrueId_guards {P : Prop} {s : SourceFiles} (hs : s.IdsIn) {id : Nat} (hid : id < s.fakeIdToRef.length) :
    (s.getTrueId id).Guards P fun x => x.2.IdsIn := by
  unfold SourceFiles.getTrueId
  split
  · rename_i h
    rw [List.getElem?_eq_none_iff] at h
    omega
  · exact .ok hs
  · refine .ok ⟨?_, ?_⟩
    · intro p i h
      have := hs.paths p i h
      simpa using this
    · intro k i h
      have := hs.cached k i h
      simpa using this

namespace Collector

theorem linesNoInlines_guards {P : Prop} (env : SrcEnv) (comp : ByteSlice) (ls : List LineInfo)
    (hp : ∀ l ∈ ls, env.mapPanics (SourceFiles.getPath env comp l.file) = true → P) :
    ∀ prev (src : SourceFiles), src.IdsIn → (linesNoInlines env comp ls prev src).Guards P fun x => x.2.IdsIn := by
  induction ls with
  | nil => intro prev src h; exact .ok h
  | cons l ls ih =>
    intro prev src h
    have ih := ih fun x hx => hp x (by simp [hx])
    rw [linesNoInlines]
    split
    · exact ih _ _ h
    · refine (getId_guards h comp l.file (hp l (by simp))).bind ?_
      rintro ⟨fileId, src⟩ ⟨h1, h2⟩
      simp only
      split
      · refine (getTrueId_guards h1 h2).bind ?_
        rintro ⟨tid, src⟩ h3
        refine (ih _ _ h3).bind ?_
        rintro ⟨ops, src⟩ h4
        exact .ok h4
      · exact ih _ _ h1

theorem walkLines_guards {P : Prop} (env : SrcEnv) (comp : ByteSlice) (depth : Nat) (ls : List LineInfo)
    (hp : ∀ l ∈ ls, env.mapPanics (SourceFiles.getPath env comp l.file) = true → P) :
    ∀ skip inl prev (src : SourceFiles), src.IdsIn → (walkLines env comp depth ls skip inl prev src).Guards P fun x => x.2.IdsIn := by
  induction ls with
  | nil => intro skip inl prev src h; exact .ok h
  | cons l ls ih =>
    intro skip inl prev src h
    have ih := ih fun x hx => hp x (by simp [hx])
    rw [walkLines]
    split
    · exact ih _ _ _ _ h
    · refine (getId_guards h comp l.file (hp l (by simp))).bind ?_
      rintro ⟨fileId, src⟩ ⟨h1, h2⟩
      refine (getTrueId_guards h1 h2).bind ?_
      rintro ⟨tid, src⟩ h3
      refine (ih _ _ _ _ h3).bind ?_
      rintro ⟨ops, src⟩ h4
      exact .ok h4

mutual
theorem collectRec_guards {P : Prop} (env : CEnv) (depth : Nat) (f : Func) (src : SourceFiles) (org : InlineOrigins)
    (hp : ∀ c i, f.Refers c i → env.src.mapPanics (SourceFiles.getPath env.src c i) = true → P) (h : src.IdsIn) :
    (collectRec env depth f src org).Guards P fun x => x.2.1.IdsIn := by
  match f, hp with
  | .mk a s n comp lines inlinees, hp =>
    rw [collectRec]
    refine (collectInlinees_guards env depth inlinees src org
      (fun g hg c i hr => hp c i (.inlined (.mk a s n comp lines inlinees) g c i hg hr)) h).bind ?_
    rintro ⟨ranges, ops1, src, org⟩ h1
    refine (walkLines_guards env.src comp depth lines (fun l hl => hp comp l.file (.here (.mk a s n comp lines inlinees) l hl)) _ _ _ _ h1).bind ?_
    rintro ⟨ops2, src⟩ h2
    exact .ok h2
theorem collectInlinees_guards {P : Prop} (env : CEnv) (depth : Nat) (fs : List Func) (src : SourceFiles) (org : InlineOrigins)
    (hp : ∀ f ∈ fs, ∀ c i, f.Refers c i → env.src.mapPanics (SourceFiles.getPath env.src c i) = true → P) (h : src.IdsIn) :
    (collectInlinees env depth fs src org).Guards P fun x => x.2.2.1.IdsIn := by
  match fs, hp with
  | [], _ => rw [collectInlinees]; exact .ok h
  | f :: fs, hp =>
    rw [collectInlinees]
    split
    · exact collectInlinees_guards env depth fs src org (fun g hg => hp g (by simp [hg])) h
    · dsimp only
      refine (collectRec_guards env (depth + 1) f src _ (hp f (by simp)) h).bind ?_
      rintro ⟨ops1, src, org⟩ h1
      refine (collectInlinees_guards env depth fs src org (fun g hg => hp g (by simp [hg])) h1).bind ?_
      rintro ⟨ranges, ops2, src, org⟩ h2
      exact .ok h2
end

/-- Every inlined call has a range. -/
def Inlined (m : Symbols) : Prop := ∀ e ∈ m, ∀ i ∈ e.2.source.inlines, i.2 ≠ []

theorem inlined_insert {m : Symbols} {a : Nat} {s : Symbol} (h : Inlined m) (hs : ∀ i ∈ s.source.inlines, i.2 ≠ []) : Inlined (m.insert a s) := by
  intro e he
  rcases SMap.mem_insert he with rfl | he
  · exact hs
  · exact h e he

theorem inlined_default : ∀ i ∈ Lines.default.inlines, i.2 ≠ [] := by intro i hi; cases hi

theorem inlined_get {m : Symbols} (h : Inlined m) {a : Nat} {s : Symbol} (hg : m.get? a = some s) : ∀ i ∈ s.source.inlines, i.2 ≠ [] :=
  h _ (SMap.mem_of_get? hg)

theorem inlined_orInsert {m : Symbols} {a : Nat} {s : Symbol} (h : Inlined m) (hs : ∀ i ∈ s.source.inlines, i.2 ≠ []) : Inlined (m.orInsert a s) := by
  unfold Symbols.orInsert
  split
  · exact h
  · exact inlined_insert h hs

theorem collectFunction_guards {P : Prop} (env : CEnv) (inlines : Bool) (f : Func) (st : State)
    (hp : ∀ c i, f.Refers c i → env.src.mapPanics (SourceFiles.getPath env.src c i) = true → P) (h : st.src.IdsIn) (hi : Inlined st.syms) :
    (collectFunction env inlines f st).Guards P fun x => x.src.IdsIn ∧ Inlined x.syms := by
  rw [collectFunction]
  split
  · exact .ok ⟨h, hi⟩
  · split
    · rename_i sym he
      refine .ok ⟨h, inlined_insert hi ?_⟩
      unfold existingFunc at he
      split at he
      · rename_i s hg
        split at he
        · cases he
        · cases he; exact fun i hm => inlined_get hi hg i hm
      · cases he
    · refine Guards.bind (Q := fun x => x.2.1.IdsIn) ?_ ?_
      · rw [functionOps]
        split
        · exact collectRec_guards env 0 f st.src st.org hp h
        · refine (linesNoInlines_guards env.src f.comp f.lines (fun l hl => hp _ _ (.here f l hl)) _ _ h).bind ?_
          rintro ⟨ops, src⟩ h1
          exact .ok h1
      · rintro ⟨ops, src, org⟩ h1
        simp only
        rw [Lines.finalize_eq]
        refine .ok ⟨h1, inlined_insert hi ?_⟩
        exact (finalized_inlines ops (u32 f.address) (u32 f.size)).2

theorem collectFunctions_guards {P : Prop} (env : CEnv) (inlines : Bool) (fs : List (Option Func)) :
    ∀ st : State, (∀ f, some f ∈ fs → ∀ c i, f.Refers c i → env.src.mapPanics (SourceFiles.getPath env.src c i) = true → P) → st.src.IdsIn →
      Inlined st.syms → (collectFunctions env inlines fs st).Guards P fun x => Inlined x.syms := by
  induction fs with
  | nil => intro st _ _ hi; exact .ok hi
  | cons f fs ih =>
    intro st hp h hi
    cases f with
    | none => rw [collectFunctions]; exact ih st (fun f hf => hp f (by simp [hf])) h hi
    | some f =>
      rw [collectFunctions]
      refine (collectFunction_guards env inlines f st (hp f (by simp)) h hi).bind ?_
      rintro st ⟨h1, h2⟩
      exact ih st (fun f hf => hp f (by simp [hf])) h1 h2

theorem collectPublics_guards {P : Prop} (env : CEnv) (platform : Platform) (ps : List Public) :
    ∀ syms : Symbols, (∀ p ∈ ps, ∀ n, p.name = some n → platform = .win → Dumper.BadName n → P) → Inlined syms →
      (collectPublics env platform ps syms).Guards P Inlined := by
  induction ps with
  | nil => intro syms _ h; exact .ok h
  | cons p ps ih =>
    intro syms hp h
    rw [collectPublics]
    refine Guards.bind (Q := Inlined) ?_ fun s hs => ih s (fun q hq => hp q (by simp [hq])) hs
    rw [collectPublic]
    split
    · exact .ok h
    · split
      · exact .ok h
      · refine Guards.bind (Q := fun _ => True) ?_ ?_
        · unfold winName
          split
          · rename_i hw
            split
            · rename_i n hn
              refine Guards.bind (Q := fun _ => True) ⟨fun e => ?_, fun _ _ => trivial⟩ fun _ _ => .ok trivial
              exact hp p (by simp) n hn hw ((C42_panics_iff n).1.mp e)
            · exact .ok trivial
          · exact .ok trivial
        · intro w _
          refine .ok ?_
          unfold putPublic
          split
          · rename_i sym hg
            refine inlined_insert h ?_
            have : (publicOccupied env w sym).source = sym.source := by
              unfold publicOccupied
              repeat' split
              all_goals rfl
            rw [this]
            exact inlined_get h hg
          · exact inlined_insert h inlined_default

theorem inlined_placeholders (name : Str) (es : List ExcEntry) : ∀ m : Symbols, Inlined m → Inlined (collectPlaceholders name es m) := by
  induction es with
  | nil => intro m h; exact h
  | cons e es ih =>
    intro m h
    rw [collectPlaceholders]
    refine ih _ ?_
    unfold collectPlaceholder
    split
    · exact h
    · split
      · exact h
      · exact inlined_orInsert h inlined_default

theorem inlined_sections (name : Str) (kind : ObjKind) {m : Symbols} (h : Inlined m) : Inlined (m.addExecutableSectionSymbols name kind) := by
  have hnew : ∀ i ∈ Lines.new.inlines, i.2 ≠ [] := by intro i hi; cases hi
  have hdummy : Inlined (m.appendDummy name) := by
    unfold Symbols.appendDummy
    split
    · exact h
    · exact inlined_orInsert h hnew
  unfold Symbols.addExecutableSectionSymbols
  split
  · rename_i hs
    induction hs generalizing m with
    | nil => exact h
    | cons x hs ih =>
      rw [Symbols.addSections]
      have : Inlined (if x.executable = true then m.orInsert (u32 x.addr) (Symbols.sectionSymbol name x) else m) := by
        split
        · exact inlined_orInsert h hnew
        · exact h
      refine ih this ?_
      unfold Symbols.appendDummy
      split
      · exact this
      · exact inlined_orInsert this hnew
  · exact hdummy
  · exact hdummy
  · exact h

end Collector

namespace ObjectInfo
open Collector

theorem display_of_inlined {o : ObjectInfo} (hi : Inlined o.symbols) (extra : Option (List Str)) : ∃ text, o.display extra = .ok text := by
  have : ∀ m : List (Nat × Symbol), (∀ e ∈ m, ∀ i ∈ e.2.source.inlines, i.2 ≠ []) → ∃ t, symbolsText m = .ok t := by
    intro m
    induction m with
    | nil => intro _; exact ⟨_, rfl⟩
    | cons e m ih =>
      intro hm
      obtain ⟨t, ht⟩ := ih fun e he => hm e (by simp [he])
      obtain ⟨k, s⟩ := e
      have hd : ∃ t, s.display = .ok t := by
        unfold Symbol.display
        split
        · exact ⟨_, rfl⟩
        · have : s.source.display = .ok (((isort Lines.inlineKeyLe s.source.inlines).flatMap fun e => Lines.printInline e.1 e.2) ++
              s.source.lines.flatMap Lines.printLine) := by
            unfold Lines.display
            rw [if_neg]
            simp only [Bool.and_eq_true, List.any_eq_true, not_exists, not_and]
            intro _ i hii
            simpa using hm (k, s) (by simp) i hii
          rw [this]; exact ⟨_, rfl⟩
      obtain ⟨t', ht'⟩ := hd
      exact ⟨_, by unfold symbolsText; rw [ht', ht]; rfl⟩
  obtain ⟨t, ht⟩ := this o.symbols hi
  exact ⟨_, by unfold ObjectInfo.display; rw [ht]; rfl⟩

/-- What the dump of an object can crash on; and its result can be printed. -/
theorem fromObject_guards {P : Prop} (env : CEnv) (inlines : Bool) (platform : Platform) (main : ObjInput) (name : Str) (pe : Option ObjInput)
    (peName : Option Str)
    (hmap : ∀ fs, main.functions = .ok fs → ∀ f, some f ∈ fs → ∀ c i, f.Refers c i →
      env.src.mapPanics (SourceFiles.getPath env.src c i) = true → P)
    (hname : ∀ ps, ps = main.publics ∨ main.Embeds ps → ∀ p ∈ ps, ∀ n, p.name = some n → platform = .win → Dumper.BadName n → P)
    (hemb : ∀ h, main.EmbeddedIn h → main.data.length < h.offset + h.size → P) :
    (fromObject env inlines platform main name pe peName).Guards P fun o => ∀ extra, ∃ text, o.display extra = .ok text := by
  unfold fromObject
  split
  · exact .err
  · rename_i fs hfs
    refine Guards.bind (Q := fun st => Inlined st.syms) ?_ fun st h => .ok fun extra => display_of_inlined h extra
    unfold collect
    refine (collectFunctions_guards env inlines fs State.new (hmap fs hfs) SourceFiles.idsIn_new (fun e he => by cases he)).bind ?_
    intro st h1
    refine (collectPublics_guards env platform main.publics _ (fun p hp n hn hw hb => hname _ (.inl rfl) p hp n hn hw hb) ?_).bind ?_
    · unfold withPlaceholders
      split
      · split
        · exact inlined_placeholders _ _ _ h1
        · exact h1
      · exact h1
    · intro syms h2
      refine Guards.bind (Q := Inlined) ?_ fun s h3 => .ok (inlined_sections name main.kind h3)
      unfold withMini
      by_cases hin : main.EmbeddedInside
      · refine Guards.bind (Q := fun r => main.Embeds (r.getD [])) ⟨fun e => ?_, fun r hr => (embeds_iff hin _).mpr ⟨r, hr, rfl⟩⟩ ?_
        · obtain ⟨r, hr⟩ := miniPublics_ok hin
          rw [hr] at e; cases e
        · intro r hr
          cases r with
          | none => exact .ok h2
          | some ps => exact collectPublics_guards env platform ps syms (fun p hp n hn hw hb => hname ps (.inr hr) p hp n hn hw hb) h2
      · unfold ObjInput.EmbeddedInside at hin
        simp only [Classical.not_forall, Nat.not_le] at hin
        obtain ⟨h, h3, h4⟩ := hin
        have hP := hemb h h3 h4
        rcases miniPublics_cases main with ⟨e, _⟩ | ⟨k, e1, e2⟩
        · exact absurd h3 (e h)
        · obtain rfl := embeddedIn_unique h3 e1
          rw [e2, if_neg (by omega)]
          exact .panic hP

/-- Embedded debug data outside the file crashes the dump. -/
theorem fromObject_embedded {env : CEnv} {inlines : Bool} {platform : Platform} {main : ObjInput} {name : Str} {pe : Option ObjInput}
    {peName : Option Str} {fs : List (Option Func)} (hfs : main.functions = .ok fs) {h : Section} (hin : main.EmbeddedIn h)
    (hl : main.data.length < h.offset + h.size) : fromObject env inlines platform main name pe peName = .panic := by
  have hno : ∀ o, fromObject env inlines platform main name pe peName ≠ .ok o := by
    intro o ho
    unfold fromObject at ho
    rw [hfs] at ho
    simp only at ho
    obtain ⟨st, h1, _⟩ := ok_of_bind ho
    unfold collect at h1
    obtain ⟨st1, _, h1⟩ := ok_of_bind h1
    obtain ⟨s1, _, h1⟩ := ok_of_bind h1
    obtain ⟨s2, h1, _⟩ := ok_of_bind h1
    unfold withMini at h1
    obtain ⟨ps, h1, _⟩ := ok_of_bind h1
    rcases miniPublics_cases main with ⟨e, _⟩ | ⟨k, e1, e2⟩
    · exact e h hin
    · obtain rfl := embeddedIn_unique hin e1
      rw [e2, if_neg (by omega)] at h1
      cases h1
  cases hr : fromObject env inlines platform main name pe peName with
  | ok o => exact absurd hr (hno o)
  | panic => rfl
  | err m =>
    have := fromObject_err_iff.mp hr
    rw [hfs] at this; cases this

end ObjectInfo
end DumpSyms
