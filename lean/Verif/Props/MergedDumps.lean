import Verif.Props.Header
import Verif.Props.Merge
import Verif.Model.Run
/-!
# C25 for dumped files, C51: the number of workers, C81: files that only look like PE files
-/
namespace DumpSyms
open ObjectInfo Collector Reader

namespace Dumper

theorem fromObject_binType {env : Env} {o : ObjInput} {fileName : Str} {pe : Option ObjInput} {peName : Option Str}
    {platform : Platform} {mapping : Option (List Mapping.Generator)} {inlines : Bool} {info : ObjectInfo}
    (h : fromObject env o fileName pe peName platform mapping inlines = .ok info) : info.binType = .stripped ↔ o.hasDebugInfo = false := by
  unfold fromObject ObjectInfo.fromObject at h
  split at h
  · cases h
  · rename_i fs hfs
    cases hc : collect (cenv env platform mapping o) inlines platform o fileName peName fs with
    | err m => rw [hc] at h; cases h
    | panic => rw [hc] at h; cases h
    | ok st =>
      rw [hc] at h
      simp only [Res.bind_ok, Res.ok.injEq] at h
      subst h
      cases o.hasDebugInfo <;> simp

/-- **C25 for two dumped objects**, one with debug information and one without: when they are merged, in either order, the name is that of the one
without debug information. -/
theorem C25_dumped (env : Env) {a b : ObjInput} {nameA nameB : Str} {peA peB : Option ObjInput} {peNameA peNameB : Option Str}
    {platformA platformB : Platform} {mappingA mappingB : Option (List Mapping.Generator)} {inlinesA inlinesB : Bool} {A B M : ObjectInfo}
    (hA : fromObject env a nameA peA peNameA platformA mappingA inlinesA = .ok A)
    (hB : fromObject env b nameB peB peNameB platformB mappingB inlinesB = .ok B)
    (ha : a.hasDebugInfo = true) (hb : b.hasDebugInfo = false) (order : List (Str × Nat) → List (Str × Nat))
    (h : ObjectInfo.merge order A B = .ok M ∨ ObjectInfo.merge order B A = .ok M) :
    AfterLast '/' (givenName b nameB) M.fileName := by
  have h1 : B.binType = .stripped := (fromObject_binType hB).mpr hb
  have h2 : A.binType ≠ .stripped := fun e => by rw [(fromObject_binType hA).mp e] at ha; cases ha
  have hlarger : ∀ l r : ObjectInfo, ∃ L R, Larger l r L R := by
    intro l r
    rcases Nat.lt_or_ge r.symbols.length l.symbols.length with h | h
    · exact ⟨_, _, .inl ⟨h, rfl, rfl⟩⟩
    · exact ⟨_, _, .inr ⟨h, rfl, rfl⟩⟩
  have hM : M.fileName = B.fileName := by
    rcases h with h | h
    · obtain ⟨L, R, hLR⟩ := hlarger A B
      exact (C25_merged_header order A B L R M hLR h).1 B A (.inr ⟨rfl, rfl⟩) h1 h2
    · obtain ⟨L, R, hLR⟩ := hlarger B A
      exact (C25_merged_header order B A L R M hLR h).1 B A (.inl ⟨rfl, rfl⟩) h1 h2
  have hname : moduleName b nameB = givenName b nameB := by
    unfold moduleName givenName
    cases b.format <;> cases b.name <;> simp
  rw [hM, (fromObject_fileName hB).1, ← hname]
  exact ⟨fileNameOnly_no_slash _, fileNameOnly_suffix _⟩

/-- An ELF file with debug information and one without. -/
def richElf : ObjInput := { exObj .elf (str% "E1") (str% "x86_64") (some (str% "usr/lib/debug/lib.so.debug")) with hasDebugInfo := true }
def bareElf : ObjInput := { exObj .elf (str% "E1") (str% "x86_64") (some (str% "usr/lib/lib.so")) with hasDebugInfo := false }

example : ∃ A B M, fromObject exEnv richElf (str% "a") none none .linux none false = .ok A ∧
    fromObject exEnv bareElf (str% "b") none none .linux none false = .ok B ∧ ObjectInfo.merge id A B = .ok M ∧
    A.fileName = str% "lib.so.debug" ∧ M.fileName = str% "lib.so" :=
  ⟨_, _, _, rfl, rfl, rfl, by decide, by decide⟩

/-- **C81, a file that only looks like a PE file.** The process panics. -/
theorem C81_unreadable_pe (env : Env) (buf : Bytes) (path filename : Str) (mapping : Option (List Mapping.Generator)) (arch : Str)
    (symbolServer : Option Str) (inlines : Bool) (w : Cache.World) (hk : env.parsers.peek buf = .pe) (hp : env.parsers.pe buf = none) :
    (getObjectInfo env buf path filename mapping arch symbolServer inlines w).1 = .panic := by
  have hpe : getPeObjectInfo env buf filename = .panic := by simp only [getPeObjectInfo, hp]
  unfold getObjectInfo
  simp only [hk]
  unfold getPePdbObjectInfo
  cases Cache.getSymServers env.home w.disk symbolServer with
  | ok servers =>
    have : parsePe env.parsers buf = none := by simp [parsePe, hp]
    simp [WinUtils.getPePdbBuf, this]
  | err m => exact hpe
  | panic => rfl

example : exEnv.parsers.peek [3, 9] = .pe ∧ exEnv.parsers.pe [3, 9] = none := by decide

end Dumper

namespace Run

/-- **C51, the number of workers.** A run over several files starts as many workers as jobs are asked for, but no more than there are files. -/
theorem C51_workers (env : Dumper.Env) (extra : Option (List Str)) (config : Dumper.Config) (files : List Str) (ws : Nat → Cache.World)
    (orders : Orders) (mapping : Option (List Mapping.Generator)) (arch : Str) (out : Output.World) :
    ((threads env extra config files ws orders mapping arch out).n = config.numJobs ∨
      (threads env extra config files ws orders mapping arch out).n = files.length) ∧
    (threads env extra config files ws orders mapping arch out).n ≤ config.numJobs ∧
    (threads env extra config files ws orders mapping arch out).n ≤ files.length := by
  unfold threads
  simp only
  omega

example : (threads Dumper.exEnv none { Dumper.exConfig with numJobs := 8 } [str% "a", str% "b"] (fun _ => ⟨fun _ => none, []⟩) ⟨id, fun _ => id⟩ none []
    Output.emptyWorld).n = 2 := by decide

end Run
end DumpSyms
