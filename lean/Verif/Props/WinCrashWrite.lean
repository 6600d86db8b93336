import Verif.Props.WinCrash
/-!
# When writing crashes on Windows, exactly
-/
namespace DumpSyms
namespace WinHost
open WinPath
open Cache (World)
open Dumper (Env Config)
open Run (Orders Options actionOf exitStatus Infos)

/-- Writing a module crashes: its file in the store cannot be created in its directory, which can be; or, with nothing wrong with the store, the output file
cannot be created. -/
inductive WritePanics (io : Output.IoEnv) (o : Options) (name id : Str) : Prop
  | store (d p dir : Str) : o.store = some d → d ≠ [] → InStore d name id p → parent p = some dir → io.mkdirs dir = true →
      io.create p = false → WritePanics io o name id
  | output (p : Str) : o.output = some p → p ≠ ['-'] → io.create p = false →
      (∀ d q dir, o.store = some d → d ≠ [] → InStore d name id q → parent q = some dir → io.mkdirs dir = true ∧ io.create q = true) →
      WritePanics io o name id

theorem store_crash_iff {io : Output.IoEnv} {extra : Option (List Str)} {out : Output.Out} {checkCfi : Bool} {m : ObjectInfo} {w : Output.World} {t : Str}
    (hpar : ∀ q, (destinations out m).2 = some q → ∃ d, parent q = some d)
    (ht : m.display extra = .ok t) (hch : (io.chunks t).flatten = Utf8.encode t) (hfit : ∀ fo, (Utf8.encode t).length ≤ io.room fo) :
    (store io extra out checkCfi m w).1 = .panic ↔ (checkCfi = true → m.stack ≠ []) ∧
      ((∃ q d, (destinations out m).2 = some q ∧ parent q = some d ∧ io.mkdirs d = true ∧ io.create q = false) ∨
        ∃ p, (destinations out m).1 = some (.path p) ∧ io.create p = false ∧
          ∀ q, (destinations out m).2 = some q → ∃ d, parent q = some d ∧ io.mkdirs d = true ∧ io.create q = true) := by
  unfold store
  split
  · rename_i h
    simp only [ObjectInfo.hasStack, Bool.not_not, Bool.and_eq_true, List.isEmpty_iff] at h
    exact ⟨(fun h => by cases h), fun h' => absurd h.2 (h'.1 h.1)⟩
  · rename_i h
    simp only [ObjectInfo.hasStack, Bool.not_not, Bool.and_eq_true, List.isEmpty_iff] at h
    have hcfi : checkCfi = true → m.stack ≠ [] := fun h1 h2 => h ⟨h1, h2⟩
    simp only [ht]
    have hfile : ∀ w, (match (destinations out m).1 with
        | some fo => Output.writeTo io (.ok t) fo w
        | none => (.ok (), w)).1 = .panic ↔ ∃ p, (destinations out m).1 = some (.path p) ∧ io.create p = false := by
      intro w
      cases (destinations out m).1 with
      | none => simp
      | some fo => simp only [Output.writeTo_crash, Option.some.injEq]
    cases h2 : (destinations out m).2 with
    | none =>
      refine Iff.trans (b := ∃ p, (destinations out m).1 = some (.path p) ∧ io.create p = false) ?_ ?_
      · rw [← hfile w]
        cases (destinations out m).1 <;> exact Iff.rfl
      · simp only [reduceCtorEq, false_and, exists_const, false_or, IsEmpty.forall_iff, implies_true, and_true]
        exact ⟨fun h => ⟨hcfi, h⟩, fun h => h.2⟩
    | some q =>
      obtain ⟨d, hd⟩ := hpar q h2
      simp only [Option.some.injEq, writeStore, hd]
      by_cases hm : io.mkdirs d = true
      · rw [if_pos hm]
        cases hc : io.create q with
        | false =>
          have hp : (Output.writeTo io (.ok t) (.path q) { w with dirs := d :: w.dirs }).1 = .panic := Output.writeTo_crash.mpr ⟨q, rfl, hc⟩
          rw [hp]
          exact ⟨fun _ => ⟨hcfi, .inl ⟨q, d, rfl, hd, hm, hc⟩⟩, fun _ => hp⟩
        | true =>
          rw [Output.writeTo_fits _ (fun p hp => by cases hp; exact hc) hch (hfit _)]
          refine Iff.trans (b := ∃ p, (destinations out m).1 = some (.path p) ∧ io.create p = false) ?_ ?_
          · rw [← hfile]
            cases (destinations out m).1 <;> exact Iff.rfl
          constructor
          · rintro ⟨p, h1, h3⟩
            exact ⟨hcfi, .inr ⟨p, h1, h3, fun q' hq => by cases hq; exact ⟨d, hd, hm, hc⟩⟩⟩
          · rintro ⟨_, ⟨q', _, rfl, _, _, h⟩ | ⟨p, h1, h3, _⟩⟩
            · rw [hc] at h; cases h
            · exact ⟨p, h1, h3⟩
      · rw [if_neg hm]
        refine ⟨fun h => (by cases h), ?_⟩
        rintro ⟨_, ⟨q', d', rfl, h1, h2, _⟩ | ⟨p, _, _, h⟩⟩
        · rw [hd] at h1; cases h1; exact absurd h2 hm
        · obtain ⟨d', h1, h2, _⟩ := h q rfl
          rw [hd] at h1; cases h1; exact absurd h2 hm

theorem writes_crash {io : Output.IoEnv} {extra : Option (List Str)} {o : Options} {m : ObjectInfo} {w : Output.World} {t : Str}
    (hplain : ∀ d, o.store = some d → d ≠ [] → PlainDir d ∧ WinProper m.fileName ∧ WinProper m.debugId)
    (ht : m.display extra = .ok t) (hch : (io.chunks t).flatten = Utf8.encode t)
    (hfit : ∀ fo, (Utf8.encode t).length ≤ io.room fo) :
    (store io extra (Output.Out.ofOptions o.output o.store) o.checkCfi m w).1 = .panic ↔
      (o.checkCfi = true → m.stack ≠ []) ∧ WritePanics io o m.fileName m.debugId := by
  have hstore : ∀ q, (destinations (Output.Out.ofOptions o.output o.store) m).2 = some q ↔
      ∃ d, o.store = some d ∧ d ≠ [] ∧ InStore d m.fileName m.debugId q := by
    intro q
    have key : ∀ dir, o.store = some dir → (symStorePath m dir = some q ↔ dir ≠ [] ∧ InStore dir m.fileName m.debugId q) := by
      intro dir hst
      by_cases hne : dir = []
      · simp [hne, symStorePath]
      · obtain ⟨n1, n2, n3⟩ := hplain dir hst hne
        rw [inStore_iff n1 n2 n3, symStorePath_of_ne hne, Option.some.injEq]
        exact ⟨fun h => ⟨hne, h.symm⟩, fun h => h.2.symm⟩
    cases hs : o.store with
    | none => cases o.output <;> simp [Output.Out.ofOptions, destinations]
    | some dir => cases o.output <;> simp [Output.Out.ofOptions, destinations, key dir hs]
  have hpar : ∀ q, (destinations (Output.Out.ofOptions o.output o.store) m).2 = some q → ∃ d, parent q = some d := by
    intro q hq
    obtain ⟨d, k1, k2, k3⟩ := (hstore q).mp hq
    obtain ⟨n1, n2, n3⟩ := hplain d k1 k2
    rw [(inStore_iff n1 n2 n3).mp k3]
    exact store_parent n1 n2 n3
  have hout : ∀ p, (destinations (Output.Out.ofOptions o.output o.store) m).1 = some (.path p) ↔ o.output = some p ∧ p ≠ ['-'] := by
    intro p
    have key : ∀ f, Output.FileOutput.ofStr f = .path p ↔ f = p ∧ p ≠ ['-'] := by
      intro f
      unfold Output.FileOutput.ofStr
      split
      · rename_i h
        exact ⟨(fun h => by cases h), fun h' => absurd (h'.1 ▸ h) h'.2⟩
      · rename_i h
        refine ⟨fun h' => by cases h'; exact ⟨rfl, h⟩, fun h' => by rw [h'.1]⟩
    cases o.output <;> cases o.store <;> simp [Output.Out.ofOptions, destinations, key]
  rw [store_crash_iff hpar ht hch hfit]
  refine and_congr_right fun _ => ?_
  simp only [hstore, hout]
  constructor
  · rintro (⟨q, d, ⟨dir, h1, h2, h3⟩, h4, h5, h6⟩ | ⟨p, ⟨h1, h2⟩, h3, h4⟩)
    · exact .store dir q d h1 h2 h3 h4 h5 h6
    · refine .output p h1 h2 h3 fun d q dir k1 k2 k3 k4 => ?_
      obtain ⟨d', e, e1, e2⟩ := h4 q ⟨d, k1, k2, k3⟩
      rw [k4] at e; cases e
      exact ⟨e1, e2⟩
  · rintro (⟨d, p, dir, h1, h2, h3, h4, h5, h6⟩ | ⟨p, h1, h2, h3, h4⟩)
    · exact .inl ⟨p, dir, ⟨d, h1, h2, h3⟩, h4, h5, h6⟩
    · refine .inr ⟨p, ⟨h1, h2⟩, h3, ?_⟩
      intro q hq
      obtain ⟨dir, hp⟩ := hpar q ((hstore q).mpr hq)
      obtain ⟨d, k1, k2, k3⟩ := hq
      exact ⟨dir, hp, h4 d q dir k1 k2 k3 hp⟩

/-- **C116, writing.** When the file has been read, the store given and the module's name and id are allowed, and the disk has room for the text, the run crashes
exactly if an INFO line given is malformed, or there is the call frame information that is asked for and the store or the output file cannot be created. -/
theorem C116_write (env : Env) (version : Str) (cpus : Nat) (o : Options) (hla : o.listArch = false) (path : Str)
    (hfile : o.filenames = [path]) (w : World) (orders : Orders) (out : Output.World)
    (config : Config) (hcfg : actionOf cpus o = .dump config) (m : ObjectInfo) (hread : (readSingle env config path w).1 = .ok m)
    (hplain : ∀ d, o.store = some d → d ≠ [] → PlainDir d ∧ WinProper m.fileName ∧ WinProper m.debugId)
    (text : Str) (ht : m.display (some (Infos version o)) = .ok text) (hch : (env.io.chunks text).flatten = Utf8.encode text)
    (hfit : ∀ fo, (Utf8.encode text).length ≤ env.io.room fo) :
    (∃ out', Exits env version cpus o w orders out 101 out') ↔
      (∃ v ∈ o.extraInfo.getD [], ¬ Main.InfoLine v) ∨ (o.checkCfi = true → m.stack ≠ []) ∧ WritePanics env.io o m.fileName m.debugId := by
  have hout : config.output = Output.Out.ofOptions o.output o.store ∧ config.checkCfi = o.checkCfi := by
    simp only [actionOf, hla, Bool.false_eq_true, if_false, Run.Action.dump.injEq] at hcfg
    rw [← hcfg]
    exact ⟨rfl, rfl⟩
  have hcrash : (singleFile env (some (Infos version o)) config path w out).1 = .panic ↔
      (o.checkCfi = true → m.stack ≠ []) ∧ WritePanics env.io o m.fileName m.debugId := by
    unfold singleFile
    simp only [hread]
    rw [hout.1, hout.2]
    exact writes_crash hplain ht hch hfit
  have hstatus : ∀ r : Res Unit, 101 = exitStatus r ↔ r = .panic := by
    intro r
    cases r <;> simp [exitStatus]
  rw [← hcrash]
  constructor
  · rintro ⟨out', h⟩
    rcases (exits_single hfile hcfg _ _).mp h with ⟨h, _⟩ | ⟨_, h, _⟩
    · exact .inl h
    · exact .inr ((hstatus _).mp h)
  · intro h
    by_cases hinfo : ∀ v ∈ o.extraInfo.getD [], Main.InfoLine v
    · rcases h with ⟨v, h1, h2⟩ | h
      · exact absurd (hinfo v h1) h2
      · exact ⟨_, (exits_single hfile hcfg _ _).mpr (.inr ⟨hinfo, (hstatus _).mpr h, rfl⟩)⟩
    · have hbad : ∃ v ∈ o.extraInfo.getD [], ¬ Main.InfoLine v := by
        simpa only [Classical.not_forall, exists_prop] using hinfo
      exact ⟨_, (exits_single hfile hcfg _ _).mpr (.inl ⟨hbad, rfl, rfl⟩)⟩

/-- C116 applied to an output file that cannot be created, with a store too: the run crashes if the directory in the store can be made, and else not (it fails). -/
example (mk : Bool) : (∃ out', Exits { winNoOutput with io := { winNoOutput.io with mkdirs := fun _ => mk } } (str% "1.0") 4
    { winCrashOptions with output := some (str% "o"), store := some (str% "D:\\") } (winCrashDisk [1]) Run.exOrders Output.emptyWorld 101 out') ↔ mk = true := by
  have hin := (inStore_iff winD_plain (winProper_of (c := str% "lib.so") (by decide)) (winProper_of (c := str% "E1") (by decide))).mpr rfl
  have hname : (winProperB (str% "lib.so")) = true ∧ (winProperB (str% "E1")) = true := by decide
  refine (C116_write { winNoOutput with io := { winNoOutput.io with mkdirs := fun _ => mk } } (str% "1.0") 4
    { winCrashOptions with output := some (str% "o"), store := some (str% "D:\\") } rfl (str% "C:\\d\\a") rfl (winCrashDisk [1]) Run.exOrders Output.emptyWorld
    _ rfl _ rfl (fun d hd _ => by cases hd; exact ⟨winD_plain, winProper_of hname.1, winProper_of hname.2⟩) _ rfl ?_ ?_).trans ?_
  · simp [winNoOutput, Output.goodDisk, Output.fullDisk]
  · intro fo
    show _ ≤ Output.goodDisk.room fo
    simp only [Output.goodDisk, Output.fullDisk]
    cases mk <;> decide +kernel
  · constructor
    · rintro (⟨v, h, _⟩ | ⟨_, h⟩)
      · cases h
      · cases h with
        | store d p dir _ _ _ _ h _ => exact h
        | output p _ _ _ h => exact (h (str% "D:\\") _ _ rfl (by decide) hin (by rfl)).1
    · rintro rfl
      refine .inr ⟨(fun h => by cases h), .output (str% "o") rfl (by decide) rfl ?_⟩
      intro d q dir h1 h2 h3 h4
      cases h1
      rw [(inStore_iff winD_plain (winProper_of hname.1) (winProper_of hname.2)).mp h3]
      exact ⟨rfl, by decide +kernel⟩

end WinHost
end DumpSyms
