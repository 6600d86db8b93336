import Verif.Spec.WinChecked
import Verif.Proof.CheckedRun
/-!
# The program for Windows in a build with overflow checks does the same or panics
-/
namespace DumpSyms
namespace WinChecked
open Res.Same
open CheckedRun (Small fromObject_same fromElf fromMacho getPeObjectInfo)

theorem getPdb_same {F : Prop} {env : Dumper.Env} (hus : SortsByStart env.us) (buf : Bytes) (path name : Str)
    (mp : Option (List Mapping.Generator)) (inl : Bool) (d : Disk) (hF : F → ∀ o, env.parsers.pdb buf = .ok o → Small o) :
    Res.Same F (fun o => F → o.symbols.Below) (getPdbObjectInfo env buf path name mp inl d) (WinHost.getPdbObjectInfo env buf path name mp inl d) := by
  unfold getPdbObjectInfo WinHost.getPdbObjectInfo
  cases hp : env.parsers.pdb buf with
  | error e => exact .rfl' fun _ h => by cases h
  | ok pdb =>
    refine (Res.Same.rfl' (P := fun _ => True) fun _ _ => trivial).bind fun r _ => ?_
    cases r with
    | none => exact fromObject_same hus _ _ _ _ _ _ _ fun h => hF h _ hp
    | some x =>
      obtain ⟨n, b⟩ := x
      dsimp only
      cases env.parsers.pe b with
      | none => exact .rfl' fun _ h => by cases h
      | some q => exact fromObject_same hus _ _ _ _ _ _ _ fun h => hF h _ hp

theorem getPePdb_same {F : Prop} {env : Dumper.Env} (hus : SortsByStart env.us) (buf : Bytes) (path name arch : Str)
    (mp : Option (List Mapping.Generator)) (server : Option Str) (inl : Bool) (w : Cache.World)
    (hF : F → ∀ o, MainObject env buf path arch server w o → Small o) :
    Res.Same F (fun o => F → o.symbols.Below) (getPePdbObjectInfo env buf path name mp server inl w).1
      (WinHost.getPePdbObjectInfo env buf path name mp server inl w).1 ∧
    (getPePdbObjectInfo env buf path name mp server inl w).2 = (WinHost.getPePdbObjectInfo env buf path name mp server inl w).2 := by
  unfold getPePdbObjectInfo WinHost.getPePdbObjectInfo
  cases hs : WinHost.getSymServers env.home w.disk server with
  | err m => exact ⟨.rfl' (fun _ h => by cases h), rfl⟩
  | panic => exact ⟨.rfl' (fun _ h => by cases h), rfl⟩
  | ok servers =>
    dsimp only
    cases hr : (WinHost.getPePdbBuf env.net (Dumper.parsePe env.parsers) env.cwd path buf servers w).1 with
    | err m => exact ⟨.rfl' (fun _ h => by cases h), rfl⟩
    | panic => exact ⟨.rfl' (fun _ h => by cases h), rfl⟩
    | ok x =>
      cases x with
      | none => exact ⟨.rfl' (fun _ h => by cases h), rfl⟩
      | some y =>
        obtain ⟨pe, pb, pn⟩ := y
        dsimp only
        cases hp : env.parsers.pdb pb with
        | error m => exact ⟨.rfl' (fun _ h => by cases h), rfl⟩
        | ok o => exact ⟨fromObject_same hus _ _ _ _ _ _ _ fun h => hF h o (.found servers o pe pb pn hs hr hp), rfl⟩

theorem getObjectInfo_same {F : Prop} {env : Dumper.Env} (hus : SortsByStart env.us) (buf : Bytes) (path name : Str)
    (mp : Option (List Mapping.Generator)) (arch : Str) (server : Option Str) (inl : Bool) (w : Cache.World)
    (hF : F → ∀ o, MainObject env buf path arch server w o → Small o) :
    Res.Same F (fun o => F → o.symbols.Below) (getObjectInfo env buf path name mp arch server inl w).1
      (WinHost.getObjectInfo env buf path name mp arch server inl w).1 ∧
    (getObjectInfo env buf path name mp arch server inl w).2 = (WinHost.getObjectInfo env buf path name mp arch server inl w).2 := by
  unfold getObjectInfo WinHost.getObjectInfo
  cases env.parsers.peek buf with
  | other => exact ⟨.rfl' (fun _ h => by cases h), rfl⟩
  | elf =>
    refine ⟨?_, rfl⟩
    show Res.Same _ _ (fromElf _ _ _ _ _ _) (Dumper.fromElf _ _ _ _ _ _)
    unfold fromElf Dumper.fromElf
    cases h : env.parsers.elf buf with
    | error e => exact .rfl' fun _ h => by cases h
    | ok o => exact fromObject_same hus _ _ _ _ _ _ _ fun hf => hF hf o (.elf o h)
  | machO =>
    refine ⟨?_, rfl⟩
    show Res.Same _ _ (fromMacho _ _ _ _ _ _) (Dumper.fromMacho _ _ _ _ _ _)
    unfold fromMacho Dumper.fromMacho
    cases h : env.parsers.archive buf with
    | error e => exact .rfl' fun _ h => by cases h
    | ok l =>
      refine (Res.Same.rfl' (P := fun r => Dumper.selectObject arch l = .ok r) fun _ h => h).bind fun r hr => ?_
      cases r with
      | none => exact .rfl' fun _ h => by cases h
      | some o => exact fromObject_same hus _ _ _ _ _ _ _ fun hf => hF hf o (.macho l o h hr)
  | pdb => exact ⟨getPdb_same hus _ _ _ _ _ _ fun hf o ho => hF hf o (.pdb o ho), rfl⟩
  | pe =>
    obtain ⟨h1, h2⟩ := getPePdb_same (F := F) hus buf path name arch mp server inl w hF
    dsimp only
    rcases h1 with ⟨hn, hc⟩ | ⟨hc, hp⟩
    · rw [hc]
      refine ⟨.inl ⟨hn, rfl⟩, ?_⟩
      rw [h2]
      cases (WinHost.getPePdbObjectInfo env buf path name mp server inl w).1 <;> rfl
    · rw [hc, h2]
      cases hr : (WinHost.getPePdbObjectInfo env buf path name mp server inl w).1 with
      | ok m => exact ⟨.ok (hp m hr), rfl⟩
      | panic => exact ⟨.rfl' (fun _ h => by cases h), rfl⟩
      | err e =>
        refine ⟨?_, rfl⟩
        show Res.Same _ _ (getPeObjectInfo _ _ _) (Dumper.getPeObjectInfo _ _ _)
        unfold getPeObjectInfo Dumper.getPeObjectInfo
        cases h : env.parsers.pe buf with
        | none => exact .rfl' fun _ h => by cases h
        | some q => exact fromObject_same hus _ _ _ _ _ _ _ fun hf => hF hf q.1 (.pe q.1 q.2 h)

theorem readSingle_same {env : Dumper.Env} (hus : SortsByStart env.us) (config : Dumper.Config) (path : Str) (w : Cache.World) :
    Res.Same (SmallFile env config path w) (fun _ => True) (readSingle env config path w).1 (WinHost.readSingle env config path w).1 ∧
    (readSingle env config path w).2 = (WinHost.readSingle env config path w).2 := by
  unfold readSingle WinHost.readSingle
  cases hn : WinHost.getFilename path with
  | err m => exact ⟨.rfl' fun _ _ => trivial, rfl⟩
  | panic => exact ⟨.rfl' fun _ _ => trivial, rfl⟩
  | ok name =>
    dsimp only
    cases hb : (WinHost.getFromId env config path name w).1 with
    | err m => exact ⟨.rfl' fun _ _ => trivial, rfl⟩
    | panic => exact ⟨.rfl' fun _ _ => trivial, rfl⟩
    | ok buf =>
      dsimp only
      cases hp : Dumper.prepare env config with
      | err m => exact ⟨.rfl' fun _ _ => trivial, rfl⟩
      | panic => exact ⟨.rfl' fun _ _ => trivial, rfl⟩
      | ok x =>
        obtain ⟨mp, arch⟩ := x
        obtain ⟨h1, h2⟩ := getObjectInfo_same (F := SmallFile env config path w) hus buf path name mp arch config.symbolServer config.emitInlines
          (WinHost.getFromId env config path name w).2 fun hf o ho => hf name buf mp arch hn hb hp o ho
        exact ⟨h1.mono fun _ _ => trivial, h2⟩

theorem parseInput_same {F : Prop} {env : Dumper.Env} (hus : SortsByStart env.us) (config : Dumper.Config) (mp : Option (List Mapping.Generator))
    (arch path : Str) (w : Cache.World)
    (hF : F → ∀ buf, WinHost.readFile env.net.cab w.disk path = .ok buf → ∀ o, MainObject env buf path arch none w o → Small o) :
    Res.Same F (fun o => F → o.symbols.Below) (parseInput env config mp arch path w).1 (WinHost.parseInput env config mp arch path w).1 := by
  unfold parseInput WinHost.parseInput
  cases hn : WinHost.getFilename path with
  | err m => exact .rfl' fun _ h => by cases h
  | panic => exact .rfl' fun _ h => by cases h
  | ok name =>
    dsimp only
    cases hb : WinHost.readFile env.net.cab w.disk path with
    | err m => exact .rfl' fun _ h => by cases h
    | panic => exact .rfl' fun _ h => by cases h
    | ok buf => exact (getObjectInfo_same hus buf path name mp arch none config.emitInlines w fun hf o ho => hF hf buf hb o ho).1

end WinChecked
end DumpSyms
