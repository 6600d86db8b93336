import Verif.Props.Crash
/-!
# When writing crashes, exactly
-/
namespace DumpSyms
namespace Run
open Dumper

/-- Writing a module crashes: its file in the store cannot be created in its directory, which can be; or, with nothing wrong with the store, the output file
cannot be created. -/
inductive WriteCrash (io : Output.IoEnv) (o : Options) (name id : Str) : Prop
  | store (d p parent : Str) : o.store = some d → d ≠ [] → InStore d name id p → Path.parent p = some parent → io.mkdirs parent = true →
      io.create p = false → WriteCrash io o name id
  | output (p : Str) : o.output = some p → p ≠ ['-'] → io.create p = false →
      (∀ d q parent, o.store = some d → d ≠ [] → InStore d name id q → Path.parent q = some parent → io.mkdirs parent = true ∧ io.create q = true) →
      WriteCrash io o name id

theorem store_crash_iff {io : Output.IoEnv} {extra : Option (List Str)} {out : Output.Out} {checkCfi : Bool} {m : ObjectInfo} {w : Output.World} {t : Str}
    (ht : m.display extra = .ok t) (hch : (io.chunks t).flatten = Utf8.encode t) (hfit : ∀ fo, (Utf8.encode t).length ≤ io.room fo) :
    (Output.store io extra out checkCfi m w).1 = .panic ↔ (checkCfi = true → m.stack ≠ []) ∧
      ((∃ q d, (Output.destinations out m).2 = some q ∧ Path.parent q = some d ∧ io.mkdirs d = true ∧ io.create q = false) ∨
        ∃ p, (Output.destinations out m).1 = some (.path p) ∧ io.create p = false ∧
          ∀ q, (Output.destinations out m).2 = some q → ∃ d, Path.parent q = some d ∧ io.mkdirs d = true ∧ io.create q = true) := by
  unfold Output.store
  split
  · rename_i h
    simp only [ObjectInfo.hasStack, Bool.not_not, Bool.and_eq_true, List.isEmpty_iff] at h
    exact ⟨(fun h => by cases h), fun h' => absurd h.2 (h'.1 h.1)⟩
  · rename_i h
    simp only [ObjectInfo.hasStack, Bool.not_not, Bool.and_eq_true, List.isEmpty_iff] at h
    have hcfi : checkCfi = true → m.stack ≠ [] := fun h1 h2 => h ⟨h1, h2⟩
    simp only [ht]
    have hfile : ∀ w, (match (Output.destinations out m).1 with
        | some fo => Output.writeTo io (.ok t) fo w
        | none => (.ok (), w)).1 = .panic ↔ ∃ p, (Output.destinations out m).1 = some (.path p) ∧ io.create p = false := by
      intro w
      cases (Output.destinations out m).1 with
      | none => simp
      | some fo => simp only [Output.writeTo_crash, Option.some.injEq]
    cases h2 : (Output.destinations out m).2 with
    | none =>
      refine Iff.trans (b := ∃ p, (Output.destinations out m).1 = some (.path p) ∧ io.create p = false) ?_ ?_
      · rw [← hfile w]
        cases (Output.destinations out m).1 <;> exact Iff.rfl
      · simp only [reduceCtorEq, false_and, exists_const, false_or, IsEmpty.forall_iff, implies_true, and_true]
        exact ⟨fun h => ⟨hcfi, h⟩, fun h => h.2⟩
    | some q =>
      obtain ⟨d, hd⟩ : ∃ d, Path.parent q = some d := by
        cases out with
        | file f => cases h2
        | store dir => exact Output.symStorePath_parent h2
        | fileAndStore f dir => exact Output.symStorePath_parent h2
      simp only [Option.some.injEq, Output.writeStore, hd]
      by_cases hm : io.mkdirs d = true
      · rw [if_pos hm]
        cases hc : io.create q with
        | false =>
          have hp : (Output.writeTo io (.ok t) (.path q) { w with dirs := d :: w.dirs }).1 = .panic := Output.writeTo_crash.mpr ⟨q, rfl, hc⟩
          rw [hp]
          exact ⟨fun _ => ⟨hcfi, .inl ⟨q, d, rfl, hd, hm, hc⟩⟩, fun _ => hp⟩
        | true =>
          rw [Output.writeTo_fits _ (fun p hp => by cases hp; exact hc) hch (hfit _)]
          refine Iff.trans (b := ∃ p, (Output.destinations out m).1 = some (.path p) ∧ io.create p = false) ?_ ?_
          · rw [← hfile]
            cases (Output.destinations out m).1 <;> exact Iff.rfl
          constructor
          · rintro ⟨p, h1, h3⟩
            exact ⟨hcfi, .inr ⟨p, h1, h3, fun q' hq => by cases hq; exact ⟨d, hd, hm, hc⟩⟩⟩
          · rintro ⟨_, ⟨q', _, rfl, _, _, h⟩ | ⟨p, h1, h3, _⟩⟩
            · rw [hc] at h; cases h
            · exact ⟨p, h1, h3⟩
      · rw [if_neg hm]
        refine ⟨fun h => (by cases h), ?_⟩
        rintro ⟨_, ⟨q', d', rfl, h1, h2, _⟩ | ⟨p, _, _, h⟩⟩
        · rw [hd] at h1; cases h1; exact absurd h2 hm
        · obtain ⟨d', h1, h2, _⟩ := h q rfl
          rw [hd] at h1; cases h1; exact absurd h2 hm

theorem writes_crash {io : Output.IoEnv} {extra : Option (List Str)} {o : Options} {m : ObjectInfo} {w : Output.World} {t : Str}
    (hn : '/' ∉ m.fileName) (ht : m.display extra = .ok t) (hch : (io.chunks t).flatten = Utf8.encode t)
    (hfit : ∀ fo, (Utf8.encode t).length ≤ io.room fo) :
    (Output.store io extra (Output.Out.ofOptions o.output o.store) o.checkCfi m w).1 = .panic ↔
      (o.checkCfi = true → m.stack ≠ []) ∧ WriteCrash io o m.fileName m.debugId := by
  rw [store_crash_iff ht hch hfit]
  refine and_congr_right fun _ => ?_
  have hstore : ∀ q, (Output.destinations (Output.Out.ofOptions o.output o.store) m).2 = some q ↔
      ∃ d, o.store = some d ∧ d ≠ [] ∧ InStore d m.fileName m.debugId q := by
    intro q
    have key : ∀ dir, Output.symStorePath m dir = some q ↔ dir ≠ [] ∧ InStore dir m.fileName m.debugId q := by
      intro dir
      rw [inStore_iff hn]
      refine ⟨fun h => Output.symStorePath_some h, ?_⟩
      rintro ⟨h1, rfl⟩
      exact Output.symStorePath_of_ne h1
    cases o.output <;> cases o.store <;> simp [Output.Out.ofOptions, Output.destinations, key]
  have hout : ∀ p, (Output.destinations (Output.Out.ofOptions o.output o.store) m).1 = some (.path p) ↔ o.output = some p ∧ p ≠ ['-'] := by
    intro p
    have key : ∀ f, Output.FileOutput.ofStr f = .path p ↔ f = p ∧ p ≠ ['-'] := by
      intro f
      unfold Output.FileOutput.ofStr
      split
      · rename_i h
        exact ⟨(fun h => by cases h), fun h' => absurd (h'.1 ▸ h) h'.2⟩
      · rename_i h
        refine ⟨fun h' => by cases h'; exact ⟨rfl, h⟩, fun h' => by rw [h'.1]⟩
    cases o.output <;> cases o.store <;> simp [Output.Out.ofOptions, Output.destinations, key]
  simp only [hstore, hout]
  constructor
  · rintro (⟨q, d, ⟨dir, h1, h2, h3⟩, h4, h5, h6⟩ | ⟨p, ⟨h1, h2⟩, h3, h4⟩)
    · exact .store dir q d h1 h2 h3 h4 h5 h6
    · refine .output p h1 h2 h3 fun d q parent k1 k2 k3 k4 => ?_
      obtain ⟨d', e, e1, e2⟩ := h4 q ⟨d, k1, k2, k3⟩
      rw [k4] at e; cases e
      exact ⟨e1, e2⟩
  · rintro (⟨d, p, parent, h1, h2, h3, h4, h5, h6⟩ | ⟨p, h1, h2, h3, h4⟩)
    · exact .inl ⟨p, parent, ⟨d, h1, h2, h3⟩, h4, h5, h6⟩
    · refine .inr ⟨p, ⟨h1, h2⟩, h3, ?_⟩
      intro q hq
      obtain ⟨d, k1, k2, k3⟩ := hq
      obtain ⟨parent, hp⟩ : ∃ d, Path.parent q = some d := by
        have := (hstore q).mpr ⟨d, k1, k2, k3⟩
        cases hs : Output.Out.ofOptions o.output o.store with
        | file f => rw [hs] at this; cases this
        | store dir => rw [hs] at this; exact Output.symStorePath_parent this
        | fileAndStore f dir => rw [hs] at this; exact Output.symStorePath_parent this
      exact ⟨parent, hp, h4 d q parent k1 k2 k3 hp⟩

/-- **C86, writing.** When everything before is well and the disk has room for the text, the run crashes exactly if an INFO line given is malformed, or there is the call frame
information that is asked for and the store or the output file cannot be created. -/
theorem C86_write (env : Env) (version : Str) (cpus : Nat) (o : Options) (hla : o.listArch = false) (pre filename : Str) (hdir : DirPart pre)
    (hname : ProperComp filename) (hfile : o.filenames = [pre ++ filename])
    (hid : ∀ id, o.debugId = some id ∨ o.codeId = some id → ProperComp id)
    (w : Cache.World) (hsane : Sane env w.disk) (orders : Orders) (out : Output.World)
    (config : Config) (hcfg : Configures cpus o config)
    (hpe : ∀ b w1, Contents env config (pre ++ filename) filename w b w1 → SanePe env b)
    (b : Bytes) (w1 : Cache.World) (hcont : Contents env config (pre ++ filename) filename w b w1)
    (mapping : Option (List Mapping.Generator))
    (hmap : Mapping.new env.map o.mappingVar o.mappingSrc o.mappingDest o.mappingFile = .ok mapping)
    (arch : Str) (harch : env.parsers.arch o.arch = some arch)
    (obj : ObjInput) (name : Str) (pe : Option ObjInput) (peName : Option Str) (platform : Platform) (opts : Bool) (w' : Cache.World)
    (hfrom : DumpedFrom env b (pre ++ filename) filename arch o.symbolServer w1 obj name pe peName platform opts w')
    (m : ObjectInfo) (hok : ObjectInfo.fromObject (cenv env platform (if opts then mapping else none) obj) (o.inlines && opts) platform obj name pe peName = .ok m)
    (text : Str) (ht : m.display (some (Infos version o)) = .ok text) (hch : (env.io.chunks text).flatten = Utf8.encode text)
    (hfit : ∀ fo, (Utf8.encode text).length ≤ env.io.room fo) :
    (∃ out', Exits env version cpus o w orders out 101 out') ↔
      (∃ v ∈ o.extraInfo.getD [], ¬ Main.InfoLine v) ∨ (o.checkCfi = true → m.stack ≠ []) ∧ WriteCrash env.io o m.fileName obj.debugId := by
  obtain ⟨c, hact, hc⟩ := (C64_config cpus o).2 hla
  obtain ⟨r1, r2, r3⟩ := hc.search
  obtain ⟨q1, q2, q3⟩ := hcfg.search
  obtain ⟨m1, m2, m3, m4⟩ := hc.mapping
  obtain ⟨n1, n2⟩ := hc.reading
  have hout : c.output = Output.Out.ofOptions o.output o.store := by
    simp only [actionOf, hla, Bool.false_eq_true, if_false] at hact
    injection hact with hact
    rw [← hact]
  have hid' : ∀ id, c.debugId = some id ∨ c.codeId = some id → ProperComp id := by rw [r2, r3]; exact hid
  have hcont' : Contents env c (pre ++ filename) filename w b w1 := contents_of (by rw [q2, r2]) (by rw [q3, r3]) (by rw [q1, r1]) hcont
  have hread : readSingle env c (pre ++ filename) w = (.ok m, w') := by
    rw [readSingle_eq hdir hname hsane hid' hcont', prepare_ok.mpr ⟨by rw [m1, m2, m3, m4]; exact hmap, by rw [n1]; exact harch⟩]
    simp only
    rw [r1, n2, C81_complete env arch o.symbolServer hdir hname (contents_sane hcont hsane) (hpe b w1 hcont) hfrom]
    unfold Dumper.fromObject
    rw [hok]
  obtain ⟨f1, f2, f3, _⟩ := fromObject_header hok
  have hcrash : (singleFile env (some (Infos version o)) c (pre ++ filename) w out).1 = .panic ↔
      (o.checkCfi = true → m.stack ≠ []) ∧ WriteCrash env.io o m.fileName obj.debugId := by
    unfold singleFile
    simp only [hread]
    rw [hout, hc.checkCfi, ← f3]
    exact writes_crash (by rw [f1]; exact fileNameOnly_no_slash _) ht hch hfit
  have hstatus : ∀ r : Res Unit, 101 = exitStatus r ↔ r = .panic := by
    intro r
    cases r <;> simp [exitStatus]
  rw [← hcrash]
  constructor
  · rintro ⟨out', h⟩
    rcases (exits_single hfile hact _ _).mp h with ⟨h, _⟩ | ⟨_, h, _⟩
    · exact .inl h
    · exact .inr ((hstatus _).mp h)
  · intro h
    by_cases hinfo : ∀ v ∈ o.extraInfo.getD [], Main.InfoLine v
    · rcases h with ⟨v, h1, h2⟩ | h
      · exact absurd (hinfo v h1) h2
      · exact ⟨_, (exits_single hfile hact _ _).mpr (.inr ⟨hinfo, (hstatus _).mpr h, rfl⟩)⟩
    · have hbad : ∃ v ∈ o.extraInfo.getD [], ¬ Main.InfoLine v := by
        simpa only [Classical.not_forall, exists_prop] using hinfo
      exact ⟨_, (exits_single hfile hact _ _).mpr (.inl ⟨hbad, rfl, rfl⟩)⟩

end Run
end DumpSyms
