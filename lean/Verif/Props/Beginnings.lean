import Verif.Props.Moments
import Verif.Props.WinMoments
/-!
# C89 and C128: every beginning of a symbol file can be what a stopped process leaves
-/
namespace DumpSyms
namespace Output

/-- Opening a destination and writing some bytes of what is to be written. -/
theorem writes_part {R : List Todo → World → Prop} (hR : ∀ k t ts w', 0 < k → R (t :: ts) w' → R ((t.make k w').1 ++ ts) (t.make k w').2)
    {w : World} {fo : FileOutput} {b : Bytes} (h : R (opening fo ++ [.write fo 0 b]) w) {part : Bytes} (hp : part <+: b) :
    ∃ todo w', R todo w' ∧ Holds w w' fo part ∧ (∀ fo', fo' ≠ fo → Untouched w w' fo') ∧ w'.dirs = w.dirs := by
  have hopen : ∃ w', R [.write fo 0 b] w' ∧ Holds w w' fo [] ∧ (∀ fo', fo' ≠ fo → Untouched w w' fo') ∧ w'.dirs = w.dirs := by
    cases fo with
    | path p =>
      refine ⟨_, hR 1 (.create p) [.write (.path p) 0 b] w (by omega) h, by simp [Todo.make, World.receive, Holds], fun fo' hne => ?_, rfl⟩
      cases fo' with
      | path q =>
        have : q ≠ p := fun e => hne (by rw [e])
        simp [Untouched, Todo.make, World.receive, this]
      | stdout => rfl
      | stderr => rfl
    | stdout => exact ⟨w, h, by simp [Holds], fun fo' _ => by cases fo' <;> rfl, rfl⟩
    | stderr => exact ⟨w, h, by simp [Holds], fun fo' _ => by cases fo' <;> rfl, rfl⟩
  obtain ⟨w1, h1, h2, h3, h4⟩ := hopen
  by_cases he : part = []
  · subst he
    exact ⟨_, w1, h1, h2, h3, h4⟩
  · have ht : b.take part.length = part := (List.prefix_iff_eq_take.mp hp).symm
    refine ⟨_, _, hR part.length (.write fo 0 b) [] w1 (List.length_pos_iff.mpr he) h1, ?_, fun fo' hne => ?_, ?_⟩
    · cases fo with
      | path p =>
        have h2 : w1.files p = some [] := h2
        simp [Todo.make, World.write, Holds, h2, writeAt, ht]
      | stdout =>
        have h2 : w1.stdout = w.stdout ++ [] := h2
        simp [Todo.make, World.write, Holds, h2, ht]
      | stderr =>
        have h2 : w1.stderr = w.stderr ++ [] := h2
        simp [Todo.make, World.write, Holds, h2, ht]
    · have h3 := h3 fo' hne
      cases fo with
      | path p =>
        cases fo' with
        | path q =>
          have : q ≠ p := fun e => hne (by rw [e])
          simpa [Untouched, Todo.make, World.write, this] using h3
        | stdout => exact h3
        | stderr => exact h3
      | stdout => cases fo' <;> first | exact absurd rfl hne | exact h3
      | stderr => cases fo' <;> first | exact absurd rfl hne | exact h3
    · cases fo <;> exact h4

/-- The calls of a module that goes to one destination. -/
theorem todoTo_ok {io : IoEnv} {t : Str} {fo : FileOutput} (ho : ∀ p, fo = .path p → io.create p = true) :
    (todoTo io (.ok t) fo).2 = opening fo ++ [.write fo 0 ((io.chunks t).flatten.take (io.room fo))] := by
  have : opens io fo = true := by
    cases fo with
    | path p => exact ho p rfl
    | stdout => rfl
    | stderr => rfl
  unfold todoTo
  rw [if_pos this]
  simp only [(dump_spec _ _ _).1]

theorem part_fits {b part : Bytes} {room : Nat} (hp : part <+: b) (hr : part.length ≤ room) : part <+: b.take room := by
  rw [List.prefix_iff_eq_take] at hp ⊢
  rw [List.take_take, Nat.min_eq_left hr]
  exact hp

end Output

namespace Run
open Output (FileOutput Holds Untouched)

/-- **C89, every beginning.** When one file is dumped to a file or to a stream, there is for every beginning of the symbol file (that the destination has room for) a moment at which
the destination holds exactly this beginning, and nothing else has changed. -/
theorem C89_beginnings (env : Dumper.Env) (version : Str) (cpus : Nat) (o : Options) (w : Cache.World) (orders : Orders) (out : Output.World)
    {f : Str} {extra : List Str} {config : Dumper.Config} {m : ObjectInfo} {t : Str} {fo : FileOutput}
    (he : Main.getExtraInfo version o.extraInfo o.noGenerator = .ok extra) (ha : actionOf cpus o = .dump config) (hf : o.filenames = [f])
    (hm : (Dumper.readSingle env config f w).1 = .ok m) (hout : config.output = .file fo) (hcfi : config.checkCfi = false ∨ m.hasStack = true)
    (ht : m.display (some extra) = .ok t) (hparts : (env.io.chunks t).flatten = Utf8.encode t) (hopen : ∀ p, fo = .path p → env.io.create p = true)
    {part : Bytes} (hp : part <+: Utf8.encode t) (hroom : part.length ≤ env.io.room fo) :
    ∃ out', During env version cpus o w orders out out' ∧ Holds out out' fo part ∧ ∀ fo', fo' ≠ fo → Untouched out out' fo' := by
  have hcalls : Output.callsOf env.io (some extra) config.output config.checkCfi m =
      Output.opening fo ++ [.write fo 0 ((Utf8.encode t).take (env.io.room fo))] := by
    have hc : (config.checkCfi && !m.hasStack) = false := by rcases hcfi with h | h <;> simp [h]
    simp [Output.callsOf, Output.todoOf, hc, hout, Output.destinations, ht, Output.todoTo_ok hopen, hparts]
  obtain ⟨todo, w', h1, h2, h3, _⟩ := Output.writes_part (R := Output.Written env.io (some extra) config.output config.checkCfi m out)
    (fun k t ts w' hk h => .call k t ts w' hk h) (by rw [← hcalls]; exact .start) (Output.part_fits hp hroom)
  exact ⟨w', .single extra config f m todo w' he ha hf hm h1, h2, h3⟩

/-- **C89, every beginning, in a store.** When one file is dumped into a store, there is for every beginning of the symbol file a moment at which the place in the store holds exactly this beginning, and
no other file has changed. -/
theorem C89_beginnings_store (env : Dumper.Env) (version : Str) (cpus : Nat) (o : Options) (w : Cache.World) (orders : Orders) (out : Output.World)
    {f : Str} {extra : List Str} {config : Dumper.Config} {m : ObjectInfo} {t dir p : Str}
    (he : Main.getExtraInfo version o.extraInfo o.noGenerator = .ok extra) (ha : actionOf cpus o = .dump config) (hf : o.filenames = [f])
    (hm : (Dumper.readSingle env config f w).1 = .ok m) (hout : config.output = .store dir) (hd : dir ≠ []) (hn : '/' ∉ m.fileName)
    (hin : InStore dir m.fileName m.debugId p) (hcfi : config.checkCfi = false ∨ m.hasStack = true)
    (ht : m.display (some extra) = .ok t) (hparts : (env.io.chunks t).flatten = Utf8.encode t) (hdirs : ∀ d, env.io.mkdirs d = true)
    (hopen : env.io.create p = true) {part : Bytes} (hp : part <+: Utf8.encode t) (hroom : part.length ≤ env.io.room (.path p)) :
    ∃ out', During env version cpus o w orders out out' ∧ Output.Holds out out' (.path p) part ∧ ∀ fo', fo' ≠ .path p → Untouched out out' fo' := by
  have hsym : Output.symStorePath m dir = some p := by
    rcases (Output.requested_iff (out := config.output) hn).mp (.store (.inl hout) hd hin) with h | ⟨q, h, e⟩
    · rw [hout] at h; cases h
    · cases e; rw [hout] at h; exact h
  obtain ⟨d, hpar⟩ : ∃ d, Path.parent p = some d := by
    exact Output.symStorePath_parent hsym
  have hcalls : Output.callsOf env.io (some extra) config.output config.checkCfi m =
      .mkdirs d :: (Output.opening (.path p) ++ [.write (.path p) 0 ((Utf8.encode t).take (env.io.room (.path p)))]) := by
    have hc : (config.checkCfi && !m.hasStack) = false := by rcases hcfi with h | h <;> simp [h]
    have h1 : (Output.todoStore env.io (.ok t) p).2 =
        .mkdirs d :: (Output.opening (.path p) ++ [.write (.path p) 0 ((Utf8.encode t).take (env.io.room (.path p)))]) := by
      have := Output.todoTo_ok (io := env.io) (t := t) (fo := .path p) (fun q e => by cases e; exact hopen)
      rw [hparts] at this
      simp [Output.todoStore, hpar, hdirs, this]
    simp only [Output.callsOf, Output.todoOf, hc, hout, Output.destinations, hsym, ht, Bool.false_eq_true, if_false]
    rw [← h1]
    split <;> rfl
  have hfirst : Output.Written env.io (some extra) config.output config.checkCfi m out
      (Output.opening (.path p) ++ [.write (.path p) 0 ((Utf8.encode t).take (env.io.room (.path p)))]) { out with dirs := d :: out.dirs } := by
    have h0 : Output.Written env.io (some extra) config.output config.checkCfi m out
        (.mkdirs d :: (Output.opening (.path p) ++ [.write (.path p) 0 ((Utf8.encode t).take (env.io.room (.path p)))])) out := by
      rw [← hcalls]; exact .start
    exact .call 1 _ _ _ (by omega) h0
  obtain ⟨todo, w', h1, h2, h3, _⟩ := Output.writes_part (R := Output.Written env.io (some extra) config.output config.checkCfi m out)
    (fun k t ts w' hk h => .call k t ts w' hk h) hfirst (Output.part_fits hp hroom)
  exact ⟨w', .single extra config f m todo w' he ha hf hm h1, h2, fun fo' hne => by have := h3 fo' hne; cases fo' <;> exact this⟩

/-- A dump to `/o.sym` can be stopped when the file holds twelve bytes. -/
example : ∃ out', During Dumper.exEnv (str% "2.3.4") 8 { exOptions [str% "/d/a"] with store := none, output := some (str% "/o.sym") } exDisk exOrders Output.emptyWorld out' ∧
    out'.files (str% "/o.sym") = some (Utf8.encode (str% "MODULE Linux")) ∧ out'.files (str% "/d/a") = none := by
  obtain ⟨out', h1, h2, h3⟩ := C89_beginnings Dumper.exEnv (str% "2.3.4") 8 { exOptions [str% "/d/a"] with store := none, output := some (str% "/o.sym") } exDisk exOrders
    Output.emptyWorld (m := exA) (fo := .path (str% "/o.sym")) (part := Utf8.encode (str% "MODULE Linux")) rfl rfl rfl rfl rfl (.inl rfl) rfl
    (by simp [Dumper.exEnv, Output.goodDisk, Output.fullDisk]) (fun _ _ => rfl) (by decide +kernel) (by decide +kernel)
  exact ⟨out', h1, h2, h3 (.path (str% "/d/a")) (by decide)⟩

/-- A dump into the store `/s` too. -/
example : ∃ out', During Dumper.exEnv (str% "2.3.4") 8 (exOptions [str% "/d/a"]) exDisk exOrders Output.emptyWorld out' ∧
    out'.files (str% "/s/lib.so/E1/lib.so.sym") = some (Utf8.encode (str% "MOD")) := by
  obtain ⟨out', h1, h2, _⟩ := C89_beginnings_store Dumper.exEnv (str% "2.3.4") 8 (exOptions [str% "/d/a"]) exDisk exOrders
    Output.emptyWorld (m := exA) (p := str% "/s/lib.so/E1/lib.so.sym") (part := Utf8.encode (str% "MOD")) rfl rfl rfl rfl rfl (by decide) (by decide)
    ((inStore_iff (by decide)).mpr (by decide +kernel)) (.inl rfl) rfl
    (by simp [Dumper.exEnv, Output.goodDisk, Output.fullDisk]) (fun _ => rfl) rfl (by decide +kernel) (by decide +kernel)
  exact ⟨out', h1, h2⟩

end Run

namespace WinHost
open Output (FileOutput Untouched)
open Run (Options Orders actionOf)

/-- **C128, every beginning.** The same on a Windows machine. -/
theorem C128_beginnings (env : Dumper.Env) (version : Str) (cpus : Nat) (o : Options) (w : Cache.World) (orders : Orders) (out : Output.World)
    {f : Str} {extra : List Str} {config : Dumper.Config} {m : ObjectInfo} {t : Str} {fo : FileOutput}
    (he : Main.getExtraInfo version o.extraInfo o.noGenerator = .ok extra) (ha : actionOf cpus o = .dump config) (hf : o.filenames = [f])
    (hm : (readSingle env config f w).1 = .ok m) (hout : config.output = .file fo) (hcfi : config.checkCfi = false ∨ m.hasStack = true)
    (ht : m.display (some extra) = .ok t) (hparts : (env.io.chunks t).flatten = Utf8.encode t) (hopen : ∀ p, fo = .path p → env.io.create p = true)
    {part : Bytes} (hp : part <+: Utf8.encode t) (hroom : part.length ≤ env.io.room fo) :
    ∃ out', During env version cpus o w orders out out' ∧ Output.Holds out out' fo part ∧ ∀ fo', fo' ≠ fo → Untouched out out' fo' := by
  have hcalls : callsOf env.io (some extra) config.output config.checkCfi m =
      Output.opening fo ++ [.write fo 0 ((Utf8.encode t).take (env.io.room fo))] := by
    have hc : (config.checkCfi && !m.hasStack) = false := by rcases hcfi with h | h <;> simp [h]
    simp [callsOf, todoOf, hc, hout, destinations, ht, Output.todoTo_ok hopen, hparts]
  obtain ⟨todo, w', h1, h2, h3, _⟩ := Output.writes_part (R := Written env.io (some extra) config.output config.checkCfi m out)
    (fun k t ts w' hk h => .call k t ts w' hk h) (by rw [← hcalls]; exact .start) (Output.part_fits hp hroom)
  exact ⟨w', .single extra config f m todo w' he ha hf hm h1, h2, h3⟩

/-- **C128, every beginning, in a store.** The same on a Windows machine. -/
theorem C128_beginnings_store (env : Dumper.Env) (version : Str) (cpus : Nat) (o : Options) (w : Cache.World) (orders : Orders) (out : Output.World)
    {f : Str} {extra : List Str} {config : Dumper.Config} {m : ObjectInfo} {t dir p : Str}
    (he : Main.getExtraInfo version o.extraInfo o.noGenerator = .ok extra) (ha : actionOf cpus o = .dump config) (hf : o.filenames = [f])
    (hm : (readSingle env config f w).1 = .ok m) (hout : config.output = .store dir) (hd : dir ≠ []) (hplain : PlainDir dir) (hn : WinProper m.fileName) (hi : WinProper m.debugId)
    (hin : InStore dir m.fileName m.debugId p) (hcfi : config.checkCfi = false ∨ m.hasStack = true)
    (ht : m.display (some extra) = .ok t) (hparts : (env.io.chunks t).flatten = Utf8.encode t) (hdirs : ∀ d, env.io.mkdirs d = true)
    (hopen : env.io.create p = true) {part : Bytes} (hp : part <+: Utf8.encode t) (hroom : part.length ≤ env.io.room (.path p)) :
    ∃ out', During env version cpus o w orders out out' ∧ Output.Holds out out' (.path p) part ∧ ∀ fo', fo' ≠ .path p → Untouched out out' fo' := by
  have hsym : symStorePath m dir = some p := by
    rcases (requested_iff (out := config.output) (fun d h _ => by rcases h with h | ⟨fo, h⟩ <;> rw [hout] at h <;> cases h; exact hplain) hn hi).mp (.store (.inl hout) hd hin) with h | ⟨q, h, e⟩
    · rw [hout] at h; cases h
    · cases e; rw [hout] at h; exact h
  obtain ⟨d, hpar⟩ : ∃ d, WinPath.parent p = some d := by
    rw [(symStorePath_some hsym).2]; exact store_parent hplain hn hi
  have hcalls : callsOf env.io (some extra) config.output config.checkCfi m =
      .mkdirs d :: (Output.opening (.path p) ++ [.write (.path p) 0 ((Utf8.encode t).take (env.io.room (.path p)))]) := by
    have hc : (config.checkCfi && !m.hasStack) = false := by rcases hcfi with h | h <;> simp [h]
    have h1 : (todoStore env.io (.ok t) p).2 =
        .mkdirs d :: (Output.opening (.path p) ++ [.write (.path p) 0 ((Utf8.encode t).take (env.io.room (.path p)))]) := by
      have := Output.todoTo_ok (io := env.io) (t := t) (fo := .path p) (fun q e => by cases e; exact hopen)
      rw [hparts] at this
      simp [todoStore, hpar, hdirs, this]
    simp only [callsOf, todoOf, hc, hout, destinations, hsym, ht, Bool.false_eq_true, if_false]
    rw [← h1]
    split <;> rfl
  have hfirst : Written env.io (some extra) config.output config.checkCfi m out
      (Output.opening (.path p) ++ [.write (.path p) 0 ((Utf8.encode t).take (env.io.room (.path p)))]) { out with dirs := d :: out.dirs } := by
    have h0 : Written env.io (some extra) config.output config.checkCfi m out
        (.mkdirs d :: (Output.opening (.path p) ++ [.write (.path p) 0 ((Utf8.encode t).take (env.io.room (.path p)))])) out := by
      rw [← hcalls]; exact .start
    exact .call 1 _ _ _ (by omega) h0
  obtain ⟨todo, w', h1, h2, h3, _⟩ := Output.writes_part (R := Written env.io (some extra) config.output config.checkCfi m out)
    (fun k t ts w' hk h => .call k t ts w' hk h) hfirst (Output.part_fits hp hroom)
  exact ⟨w', .single extra config f m todo w' he ha hf hm h1, h2, fun fo' hne => by have := h3 fo' hne; cases fo' <;> exact this⟩

/-- A dump to `D:\o.sym` can be stopped when the file holds twelve bytes. -/
example : ∃ out', During winEnv (str% "2.3.4") 8 { winOptions [str% "C:\\d\\a"] with store := none, output := some (str% "D:\\o.sym") } winTwoDisk Run.exOrders
      Output.emptyWorld out' ∧
    out'.files (str% "D:\\o.sym") = some (Utf8.encode (str% "MODULE Linux")) ∧ out'.files (str% "C:\\d\\a") = none := by
  obtain ⟨out', h1, h2, h3⟩ := C128_beginnings winEnv (str% "2.3.4") 8 { winOptions [str% "C:\\d\\a"] with store := none, output := some (str% "D:\\o.sym") } winTwoDisk
    Run.exOrders Output.emptyWorld (m := winA) (fo := .path (str% "D:\\o.sym")) (part := Utf8.encode (str% "MODULE Linux")) rfl rfl rfl rfl rfl (.inl rfl) rfl
    (by simp [winEnv, Dumper.exEnv, Output.goodDisk, Output.fullDisk]) (fun _ _ => rfl) (by decide +kernel) (by decide +kernel)
  exact ⟨out', h1, h2, h3 (.path (str% "C:\\d\\a")) (by decide)⟩

/-- A dump into the store `C:\store` too. -/
example : ∃ out', During winEnv (str% "2.3.4") 8 (winOptions [str% "C:\\d\\a"]) winTwoDisk Run.exOrders Output.emptyWorld out' ∧
    out'.files (str% "C:\\store\\lib.so\\E1\\lib.so.sym") = some (Utf8.encode (str% "MOD")) := by
  have hplain : PlainDir (str% "C:\\store") := ⟨_, _, _, .driveRooted 'C' '\\' _ (by decide) (by decide)⟩
  have hn : WinProper winA.fileName := winProper_of (by decide)
  have hi : WinProper winA.debugId := winProper_of (by decide)
  obtain ⟨out', h1, h2, _⟩ := C128_beginnings_store winEnv (str% "2.3.4") 8 (winOptions [str% "C:\\d\\a"]) winTwoDisk Run.exOrders
    Output.emptyWorld (m := winA) (p := str% "C:\\store\\lib.so\\E1\\lib.so.sym") (part := Utf8.encode (str% "MOD")) rfl rfl rfl rfl rfl (by decide) hplain hn hi
    ((inStore_iff hplain hn hi).mpr (by decide +kernel)) (.inl rfl) rfl
    (by simp [winEnv, Dumper.exEnv, Output.goodDisk, Output.fullDisk]) (fun _ => rfl) rfl (by decide +kernel) (by decide +kernel)
  exact ⟨out', h1, h2⟩

end WinHost
end DumpSyms
