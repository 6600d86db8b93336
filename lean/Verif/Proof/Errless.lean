import Verif.Model.ObjectInfo
/-!
# Collecting the symbols of an object never reports an error

The only error `ObjectInfo::from_object` can give is that of `debug_session()` (everything else succeeds or panics).
-/
namespace DumpSyms

/-- The outcome is not an error. -/
structure Res.Errless {α : Type} (r : Res α) : Prop where
  no : ∀ m, r ≠ .err m

namespace Res

theorem Errless.ok {α : Type} (a : α) : (Res.ok a).Errless := ⟨fun _ h => by cases h⟩
theorem Errless.panic {α : Type} : (Res.panic : Res α).Errless := ⟨fun _ h => by cases h⟩

theorem Errless.bind {α β : Type} {r : Res α} {f : α → Res β} (h : r.Errless) (hf : ∀ a, (f a).Errless) : (r >>= f).Errless := by
  cases r with
  | ok a => exact hf a
  | err m => exact absurd rfl (h.no m)
  | panic => exact Errless.panic

end Res

open Res

theorem getIdOfPath_errless (env : SrcEnv) (s : SourceFiles) (path : Str) : (s.getIdOfPath env path).Errless := by
  unfold SourceFiles.getIdOfPath
  split
  · exact .ok _
  · dsimp only
    split
    · exact .panic
    · exact .ok _

theorem getId_errless (env : SrcEnv) (s : SourceFiles) (comp : ByteSlice) (f : FileInfo) : (s.getId env comp f).Errless := by
  unfold SourceFiles.getId
  split
  · exact .ok _
  · exact .bind (getIdOfPath_errless ..) fun _ => .ok _

theorem getTrueId_errless (s : SourceFiles) (id : Nat) : (s.getTrueId id).Errless := by
  unfold SourceFiles.getTrueId
  split
  · exact .panic
  · exact .ok _
  · exact .ok _

theorem finalize_errless (s : Lines) (a b : Nat) : (s.finalize a b).Errless := by
  unfold Lines.finalize Lines.computeLen
  split
  · exact .ok _
  · split
    · exact .ok _
    · exact .panic

namespace Collector

theorem linesNoInlines_errless (env : SrcEnv) (comp : ByteSlice) (ls : List LineInfo) :
    ∀ prev src, (linesNoInlines env comp ls prev src).Errless := by
  induction ls with
  | nil => intro prev src; exact .ok _
  | cons l ls ih =>
    intro prev src
    unfold linesNoInlines
    split
    · exact ih _ _
    · refine .bind (getId_errless ..) fun x => ?_
      dsimp only
      split
      · exact .bind (getTrueId_errless ..) fun y => .bind (ih _ _) fun z => .ok _
      · exact ih _ _

theorem walkLines_errless (env : SrcEnv) (comp : ByteSlice) (depth : Nat) (ls : List LineInfo) :
    ∀ skipTo inl prev src, (walkLines env comp depth ls skipTo inl prev src).Errless := by
  induction ls with
  | nil => intro skipTo inl prev src; exact .ok _
  | cons l ls ih =>
    intro skipTo inl prev src
    unfold walkLines
    split
    · exact ih _ _ _ _
    · exact .bind (getId_errless ..) fun x => .bind (getTrueId_errless ..) fun y => .bind (ih _ _ _ _) fun z => .ok _

mutual

theorem collectRec_errless (env : CEnv) (depth : Nat) (f : Func) (src : SourceFiles) (org : InlineOrigins) :
    (collectRec env depth f src org).Errless := by
  cases f with
  | mk a s n comp lines inlinees =>
    unfold collectRec
    exact .bind (collectInlinees_errless env depth inlinees src org) fun x => .bind (walkLines_errless ..) fun y => .ok _
  termination_by structural f

theorem collectInlinees_errless (env : CEnv) (depth : Nat) (fs : List Func) (src : SourceFiles) (org : InlineOrigins) :
    (collectInlinees env depth fs src org).Errless := by
  cases fs with
  | nil => unfold collectInlinees; exact .ok _
  | cons f fs =>
    unfold collectInlinees
    split
    · exact collectInlinees_errless env depth fs src org
    · dsimp only
      exact .bind (collectRec_errless env (depth + 1) f _ _) fun x => .bind (collectInlinees_errless env depth fs _ _) fun y => .ok _
  termination_by structural fs

end

theorem collectFunction_errless (env : CEnv) (inlines : Bool) (f : Func) (st : State) : (collectFunction env inlines f st).Errless := by
  unfold collectFunction
  split
  · exact .ok _
  · split
    · exact .ok _
    · refine .bind ?_ fun x => .bind (finalize_errless ..) fun y => .ok _
      unfold functionOps
      split
      · exact collectRec_errless ..
      · exact .bind (linesNoInlines_errless ..) fun x => .ok _

theorem collectFunctions_errless (env : CEnv) (inlines : Bool) (fs : List (Option Func)) :
    ∀ st, (collectFunctions env inlines fs st).Errless := by
  induction fs with
  | nil => intro st; exact .ok _
  | cons f fs ih =>
    intro st
    cases f with
    | none => exact ih st
    | some f => exact .bind (collectFunction_errless ..) ih

theorem parseUnknown_errless (n : Str) : (WinName.parseUnknown n).Errless := by
  unfold WinName.parseUnknown WinName.parseCDecorated WinName.parseOther
  split
  · exact .ok _
  · split
    · exact .ok _
    · split
      · exact .ok _
      · refine .bind ?_ fun x => ?_
        · unfold WinName.splitAtOne
          split
          · exact .panic
          · split
            · exact .ok _
            · exact .panic
        · dsimp only
          split
          · split
            · exact .ok _
            · split
              · exact .ok _
              · exact .ok _
          · exact .ok _

theorem collectPublics_errless (env : CEnv) (platform : Platform) (ps : List Public) :
    ∀ syms, (collectPublics env platform ps syms).Errless := by
  induction ps with
  | nil => intro syms; exact .ok _
  | cons p ps ih =>
    intro syms
    refine .bind ?_ ih
    unfold collectPublic
    split
    · exact .ok _
    · split
      · exact .ok _
      · refine .bind ?_ fun w => .ok _
        unfold winName
        split
        · split
          · exact .bind (parseUnknown_errless _) fun w => .ok _
          · exact .ok _
        · exact .ok _

end Collector

namespace ObjectInfo
open Collector

theorem miniDebugInfo_errless (unxz : List Nat → Option (List Nat)) (data : List Nat) (l : List Section) :
    (miniDebugInfo unxz data l).Errless := by
  induction l with
  | nil => exact .ok _
  | cons h l ih =>
    unfold miniDebugInfo
    split
    · split
      · exact .ok _
      · exact .panic
    · exact ih

theorem collect_errless (env : CEnv) (inlines : Bool) (platform : Platform) (main : ObjInput) (name : Str) (peName : Option Str)
    (fs : List (Option Func)) : (collect env inlines platform main name peName fs).Errless := by
  unfold collect
  refine .bind (collectFunctions_errless ..) fun st => .bind (collectPublics_errless ..) fun syms => .bind ?_ fun syms => .ok _
  unfold withMini
  refine .bind ?_ fun ps => ?_
  · unfold miniPublics
    refine .bind ?_ fun b => .ok _
    unfold getCompressedMinidebuginfo
    split
    · exact miniDebugInfo_errless ..
    · exact .ok _
  · split
    · exact collectPublics_errless ..
    · exact .ok _

theorem fromObject_err_iff {env : CEnv} {inlines : Bool} {platform : Platform} {main : ObjInput} {name : Str} {pe : Option ObjInput}
    {peName : Option Str} {m : Str} : fromObject env inlines platform main name pe peName = .err m ↔ main.functions = .error m := by
  unfold fromObject
  split
  · rename_i e h
    simp [h]
  · rename_i fs h
    constructor
    · intro h'
      exact absurd h' ((Errless.bind (collect_errless ..) (fun st => .ok _)).no m)
    · intro h'
      rw [h] at h'
      cases h'

end ObjectInfo
end DumpSyms
