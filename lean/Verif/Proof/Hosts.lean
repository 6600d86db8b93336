import Verif.Proof.CrashCollect
import Verif.Model.Dumper
/-!
# Collections that only differ in how source paths are resolved
-/
namespace DumpSyms

/-- Two environments of a collection that agree in everything but how source paths are resolved. -/
structure CEnv.SameButHost (e f : CEnv) : Prop where
  dm : f.dm = e.dm
  detect : f.detect = e.detect
  us : f.us = e.us
  mapping : f.src.mapping = e.src.mapping
  mapPanics : f.src.mapPanics = e.src.mapPanics

theorem getId_host {e f : SrcEnv} (hm : f.mapping = e.mapping) (hp : f.mapPanics = e.mapPanics) {comp : ByteSlice} {file : FileInfo}
    (h : SourceFiles.getPath f comp file = SourceFiles.getPath e comp file) (s : SourceFiles) : s.getId f comp file = s.getId e comp file := by
  unfold SourceFiles.getId SourceFiles.getIdOfPath
  rw [h, hm, hp]

namespace Collector

theorem linesNoInlines_host {e f : SrcEnv} (hm : f.mapping = e.mapping) (hp : f.mapPanics = e.mapPanics) (comp : ByteSlice) (ls : List LineInfo)
    (h : ∀ l ∈ ls, SourceFiles.getPath f comp l.file = SourceFiles.getPath e comp l.file) :
    ∀ prev (src : SourceFiles), linesNoInlines f comp ls prev src = linesNoInlines e comp ls prev src := by
  induction ls with
  | nil => intro prev src; rfl
  | cons l ls ih =>
    intro prev src
    have ih := ih fun x hx => h x (by simp [hx])
    rw [linesNoInlines, linesNoInlines, getId_host hm hp (h l (by simp))]
    simp only [ih]

theorem walkLines_host {e f : SrcEnv} (hm : f.mapping = e.mapping) (hp : f.mapPanics = e.mapPanics) (comp : ByteSlice) (depth : Nat) (ls : List LineInfo)
    (h : ∀ l ∈ ls, SourceFiles.getPath f comp l.file = SourceFiles.getPath e comp l.file) :
    ∀ skip inl prev (src : SourceFiles), walkLines f comp depth ls skip inl prev src = walkLines e comp depth ls skip inl prev src := by
  induction ls with
  | nil => intro skip inl prev src; rfl
  | cons l ls ih =>
    intro skip inl prev src
    have ih := ih fun x hx => h x (by simp [hx])
    rw [walkLines, walkLines, getId_host hm hp (h l (by simp))]
    simp only [ih]

mutual
theorem collectRec_host {e f : CEnv} (hs : e.SameButHost f) (depth : Nat) (fn : Func) (src : SourceFiles) (org : InlineOrigins)
    (h : ∀ c i, fn.Refers c i → SourceFiles.getPath f.src c i = SourceFiles.getPath e.src c i) :
    collectRec f depth fn src org = collectRec e depth fn src org := by
  match fn, h with
  | .mk a s n comp lines inlinees, h =>
    rw [collectRec, collectRec, collectInlinees_host hs depth inlinees src org
      (fun g hg c i hr => h c i (.inlined (.mk a s n comp lines inlinees) g c i hg hr)), hs.us]
    simp only [walkLines_host hs.mapping hs.mapPanics comp depth lines (fun l hl => h comp l.file (.here (.mk a s n comp lines inlinees) l hl))]
theorem collectInlinees_host {e f : CEnv} (hs : e.SameButHost f) (depth : Nat) (fns : List Func) (src : SourceFiles) (org : InlineOrigins)
    (h : ∀ fn ∈ fns, ∀ c i, fn.Refers c i → SourceFiles.getPath f.src c i = SourceFiles.getPath e.src c i) :
    collectInlinees f depth fns src org = collectInlinees e depth fns src org := by
  match fns, h with
  | [], _ => rw [collectInlinees, collectInlinees]
  | fn :: fns, h =>
    rw [collectInlinees, collectInlinees, hs.dm, collectInlinees_host hs depth fns src org (fun g hg => h g (by simp [hg]))]
    dsimp only
    rw [collectRec_host hs (depth + 1) fn src _ (h fn (by simp))]
    have : ∀ src org, collectInlinees f depth fns src org = collectInlinees e depth fns src org := fun src org =>
      collectInlinees_host hs depth fns src org (fun g hg => h g (by simp [hg]))
    simp only [this]
end

theorem collectFunctions_host {e f : CEnv} (hs : e.SameButHost f) (inlines : Bool) (fs : List (Option Func)) :
    ∀ st : State, (∀ fn, some fn ∈ fs → ∀ c i, fn.Refers c i → SourceFiles.getPath f.src c i = SourceFiles.getPath e.src c i) →
      collectFunctions f inlines fs st = collectFunctions e inlines fs st := by
  induction fs with
  | nil => intro st _; rfl
  | cons fn fs ih =>
    intro st h
    have ih := fun st => ih st fun g hg => h g (by simp [hg])
    cases fn with
    | none => rw [collectFunctions, collectFunctions, ih]
    | some fn =>
      have h1 : collectFunction f inlines fn st = collectFunction e inlines fn st := by
        have hr := h fn (by simp)
        have hd : demangle f fn.name = demangle e fn.name := by unfold demangle; rw [hs.dm]
        have ho : functionOps f inlines fn st.src st.org = functionOps e inlines fn st.src st.org := by
          unfold functionOps collectWithoutInlines
          rw [collectRec_host hs 0 fn st.src st.org hr,
            linesNoInlines_host hs.mapping hs.mapPanics fn.comp fn.lines (fun l hl => hr _ _ (.here fn l hl))]
        unfold collectFunction
        rw [ho, hd]
      rw [collectFunctions, collectFunctions, h1]
      simp only [ih]

theorem collectPublics_host {e f : CEnv} (hs : e.SameButHost f) (platform : Platform) (ps : List Public) :
    ∀ syms : Symbols, collectPublics f platform ps syms = collectPublics e platform ps syms := by
  have hd : ∀ n, demangleStr f n = demangleStr e n := by intro n; unfold demangleStr; rw [hs.dm, hs.detect]
  induction ps with
  | nil => intro syms; rfl
  | cons p ps ih =>
    intro syms
    have h1 : collectPublic f platform p syms = collectPublic e platform p syms := by
      unfold collectPublic putPublic publicOccupied publicVacant
      simp only [hd]
    rw [collectPublics, collectPublics, h1]
    simp only [ih]

end Collector

theorem fromObject_host {e f : CEnv} (hs : e.SameButHost f) (inlines : Bool) (platform : Platform) (o : ObjInput) (name : Str) (pe : Option ObjInput)
    (peName : Option Str) (h : ∀ fs, o.functions = .ok fs → ∀ fn, some fn ∈ fs → ∀ c i, fn.Refers c i →
      SourceFiles.getPath f.src c i = SourceFiles.getPath e.src c i) :
    ObjectInfo.fromObject f inlines platform o name pe peName = ObjectInfo.fromObject e inlines platform o name pe peName := by
  unfold ObjectInfo.fromObject
  cases hf : o.functions with
  | error m => rfl
  | ok fs =>
    have hc : ObjectInfo.collect f inlines platform o name peName fs = ObjectInfo.collect e inlines platform o name peName fs := by
      unfold ObjectInfo.collect ObjectInfo.withMini
      rw [Collector.collectFunctions_host hs inlines fs _ (h fs hf)]
      simp only [Collector.collectPublics_host hs]
    simp only [hc]

end DumpSyms
