import Verif.Proof.Changes
import Verif.Proof.Errless
import Verif.Proof.Reader
import Verif.Props.Process
/-!
# C91: what `--inlines` and the path mappings change
-/
namespace DumpSyms

/-- A symbol read back without what is listed under it. -/
def Reader.RSym.bare (r : Reader.RSym) : Reader.RSym := { r with inlines := [], lines := [] }

open Reader

theorem symOf_bare (s : Symbol) : (symOf s).bare = (symOf s.bare).bare := by
  unfold symOf RSym.bare
  show _ = { (if s.isPublic = true then _ else _ : RSym) with inlines := [], lines := [] }
  split <;> rfl

/-- **C91, the texts.** The symbol files of two modules that differ at most in their records agree in the MODULE record, the INFO records, the STACK
records and the FUNC and PUBLIC records. -/
theorem C91_texts {o p : ObjectInfo} (h : o.SameButRecords p) {extra : Option (List Str)} (ho : o.Readable (extra.getD []))
    (hp : p.Readable (extra.getD [])) (hio : ∀ e ∈ o.symbols, ∀ i ∈ e.2.source.inlines, i.2 ≠ [])
    (hip : ∀ e ∈ p.symbols, ∀ i ∈ e.2.source.inlines, i.2 ≠ []) :
    ∃ t u f g, o.display extra = .ok t ∧ p.display extra = .ok u ∧ readSymFile t = some f ∧ readSymFile u = some g ∧
      f.modules = g.modules ∧ f.codeId = g.codeId ∧ f.extra = g.extra ∧
      f.stack.flatMap (fun l => str% "STACK " ++ l ++ str% "\n") = g.stack.flatMap (fun l => str% "STACK " ++ l ++ str% "\n") ∧
      f.symbols.map RSym.bare = g.symbols.map RSym.bare := by
  obtain ⟨t, f, a1, a2, a3, a4, a5, _, _, a8, a9⟩ := read_display ho hio
  obtain ⟨u, g, b1, b2, b3, b4, b5, _, _, b8, b9⟩ := read_display hp hip
  refine ⟨t, u, f, g, a1, b1, a2, b2, ?_, ?_, ?_, ?_, ?_⟩
  · rw [a3, b3, h.platform, h.cpu, h.debugId, h.fileName]
  · rw [a4, b4, h.codeId, h.peName]
  · rw [a5, b5]
  · rw [← a9, ← b9, h.stack]
  · have key : ∀ m : Symbols, (m.map fun e => symOf e.2).map RSym.bare = m.bare.map fun e => (symOf e.2).bare := by
      intro m
      unfold Symbols.bare
      rw [List.map_map, List.map_map]
      exact List.map_congr_left fun e _ => symOf_bare e.2
    rw [a8, b8, key, key, h.symbols]

theorem enumFrom_map {α β : Type} (f : α → β) (l : List α) (n : Nat) : ObjectInfo.enumFrom n (l.map f) = (ObjectInfo.enumFrom n l).map fun e => (e.1, f e.2) := by
  induction l generalizing n with
  | nil => rfl
  | cons a l ih => simp [ObjectInfo.enumFrom, ih]

/-- **C91, the texts with other path mappings.** Such symbol files agree in all records but the FILE records, which are as many, with the same numbers. -/
theorem C91_texts_paths {f g : Str → Str → Prop} {o p : ObjectInfo} (h : o.SameButPaths f g p) {extra : Option (List Str)}
    (ho : o.Readable (extra.getD [])) (hp : p.Readable (extra.getD [])) (hio : ∀ e ∈ o.symbols, ∀ i ∈ e.2.source.inlines, i.2 ≠ []) :
    ∃ t u F G, o.display extra = .ok t ∧ p.display extra = .ok u ∧ readSymFile t = some F ∧ readSymFile u = some G ∧
      F.modules = G.modules ∧ F.codeId = G.codeId ∧ F.extra = G.extra ∧ F.origins = G.origins ∧ F.symbols = G.symbols ∧
      F.stack.flatMap (fun l => str% "STACK " ++ l ++ str% "\n") = G.stack.flatMap (fun l => str% "STACK " ++ l ++ str% "\n") ∧
      ∃ t : List (Nat × Str × Str × Str), (∀ e ∈ t, f e.2.1 e.2.2.1 ∧ g e.2.1 e.2.2.2) ∧
        F.files = t.map (fun e => (e.1, e.2.2.1)) ∧ G.files = t.map (fun e => (e.1, e.2.2.2)) := by
  obtain ⟨t, F, a1, a2, a3, a4, a5, a6, a7, a8, a9⟩ := read_display ho hio
  obtain ⟨u, G, b1, b2, b3, b4, b5, b6, b7, b8, b9⟩ := read_display hp (h.symbols ▸ hio)
  obtain ⟨tab, h1, h2, h3⟩ := h.files
  refine ⟨t, u, F, G, a1, b1, a2, b2, ?_, ?_, ?_, ?_, ?_, ?_, ObjectInfo.enumFrom 0 tab, ?_, ?_, ?_⟩
  · rw [a3, b3, h.rest.platform, h.rest.cpu, h.rest.debugId, h.rest.fileName]
  · rw [a4, b4, h.rest.codeId, h.rest.peName]
  · rw [a5, b5]
  · rw [a7, b7, h.inlineOrigins]
  · rw [a8, b8, h.symbols]
  · rw [← a9, ← b9, h.rest.stack]
  · have : ∀ n, ∀ e ∈ ObjectInfo.enumFrom n tab, e.2 ∈ tab := by
      intro n
      generalize tab = l
      induction l generalizing n with
      | nil => intro e he; cases he
      | cons a l ih =>
        intro e he
        rcases List.mem_cons.mp he with rfl | he
        · exact List.mem_cons_self ..
        · exact List.mem_cons_of_mem _ (ih _ e he)
    exact fun e he => h1 _ (this 0 e he)
  · rw [a6, h2, enumFrom_map]
  · rw [b6, h3, enumFrom_map]

namespace Dumper
open ObjectInfo (same_records same_paths fromObject_err_iff)

theorem fromObject_changes {env : Env} {o : ObjInput} {name : Str} {pe : Option ObjInput} {peName : Option Str} {platform : Platform}
    {mapping mapping' : Option (List Mapping.Generator)} {inlines inlines' : Bool} {m n : ObjectInfo}
    (h1 : fromObject env o name pe peName platform mapping inlines = .ok m)
    (h2 : fromObject env o name pe peName platform mapping' inlines' = .ok n) :
    m.SameButRecords n ∧ (inlines = inlines' → m.SameButPaths
      (fun a b => mappingPanics env mapping a = false ∧ b = (mappingFn env mapping a).getD a)
      (fun a b => mappingPanics env mapping' a = false ∧ b = (mappingFn env mapping' a).getD a) n) := by
  refine ⟨ObjectInfo.same_records (e1 := cenv env platform mapping o) (e2 := cenv env platform mapping' o) rfl rfl h1 h2, ?_⟩
  rintro rfl
  exact ObjectInfo.same_paths (e1 := cenv env platform mapping o) (e2 := cenv env platform mapping' o) rfl h1 h2

/-- What two modules dumped of one file have in common. -/
def Changes (env : Env) (mapping mapping' : Option (List Mapping.Generator)) (inlines inlines' : Bool) (m n : ObjectInfo) : Prop :=
  m.SameButRecords n ∧ (inlines = inlines' → m = n ∨ m.SameButPaths
    (fun a b => mappingPanics env mapping a = false ∧ b = (mappingFn env mapping a).getD a)
    (fun a b => mappingPanics env mapping' a = false ∧ b = (mappingFn env mapping' a).getD a) n)

theorem Changes.same (env : Env) (mapping mapping' : Option (List Mapping.Generator)) (inlines inlines' : Bool) (m : ObjectInfo) :
    Changes env mapping mapping' inlines inlines' m m :=
  ⟨⟨rfl, rfl, rfl, rfl, rfl, rfl, rfl, rfl, rfl⟩, fun _ => .inl rfl⟩

theorem fromObject_Changes {env : Env} {o : ObjInput} {name : Str} {pe : Option ObjInput} {peName : Option Str} {platform : Platform}
    {mapping mapping' : Option (List Mapping.Generator)} {inlines inlines' : Bool} {m n : ObjectInfo}
    (h1 : fromObject env o name pe peName platform mapping inlines = .ok m)
    (h2 : fromObject env o name pe peName platform mapping' inlines' = .ok n) : Changes env mapping mapping' inlines inlines' m n :=
  ⟨(fromObject_changes h1 h2).1, fun h => .inr ((fromObject_changes h1 h2).2 h)⟩

theorem getPePdb_Changes {env : Env} {buf : Bytes} {path filename : Str} {mapping mapping' : Option (List Mapping.Generator)}
    {symbolServer : Option Str} {inlines inlines' : Bool} {w : Cache.World} :
    (∃ m n, (getPePdbObjectInfo env buf path filename mapping symbolServer inlines w).1 = .ok m ∧
      (getPePdbObjectInfo env buf path filename mapping' symbolServer inlines' w).1 = .ok n ∧ Changes env mapping mapping' inlines inlines' m n) ∨
    (getPePdbObjectInfo env buf path filename mapping symbolServer inlines w).1 = .panic ∨
    (getPePdbObjectInfo env buf path filename mapping' symbolServer inlines' w).1 = .panic ∨
    ∃ e, (getPePdbObjectInfo env buf path filename mapping symbolServer inlines w).1 = .err e ∧
      (getPePdbObjectInfo env buf path filename mapping' symbolServer inlines' w).1 = .err e := by
  unfold getPePdbObjectInfo
  split
  · dsimp only
    split
    · rename_i x pdbBuf pdbName _
      cases env.parsers.pdb pdbBuf with
      | error e => exact .inr (.inr (.inr ⟨e, rfl, rfl⟩))
      | ok pdb =>
        dsimp only
        unfold fromPdb
        cases h1 : fromObject env pdb pdbName ((env.parsers.pe buf).map (·.1)) (some filename) .win mapping inlines with
        | panic => exact .inr (.inl rfl)
        | err e =>
          have h2 : fromObject env pdb pdbName ((env.parsers.pe buf).map (·.1)) (some filename) .win mapping' inlines' = .err e :=
            ObjectInfo.fromObject_err_iff.mpr (ObjectInfo.fromObject_err_iff.mp h1)
          exact .inr (.inr (.inr ⟨e, rfl, h2⟩))
        | ok m =>
          cases h2 : fromObject env pdb pdbName ((env.parsers.pe buf).map (·.1)) (some filename) .win mapping' inlines' with
          | panic => exact .inr (.inr (.inl rfl))
          | err e =>
            have : fromObject env pdb pdbName ((env.parsers.pe buf).map (·.1)) (some filename) .win mapping inlines = .err e :=
              ObjectInfo.fromObject_err_iff.mpr (ObjectInfo.fromObject_err_iff.mp h2)
            cases h1.symm.trans this
          | ok n => exact .inl ⟨m, n, rfl, rfl, fromObject_Changes h1 h2⟩
    · exact .inr (.inr (.inr ⟨_, rfl, rfl⟩))
    · exact .inr (.inr (.inr ⟨_, rfl, rfl⟩))
    · exact .inr (.inl rfl)
  · exact .inr (.inr (.inr ⟨_, rfl, rfl⟩))
  · exact .inr (.inl rfl)

theorem getObjectInfo_Changes {env : Env} {buf : Bytes} {path filename : Str} {mapping mapping' : Option (List Mapping.Generator)}
    {arch : Str} {symbolServer : Option Str} {inlines inlines' : Bool} {w : Cache.World} {m n : ObjectInfo}
    (h1 : (getObjectInfo env buf path filename mapping arch symbolServer inlines w).1 = .ok m)
    (h2 : (getObjectInfo env buf path filename mapping' arch symbolServer inlines' w).1 = .ok n) :
    Changes env mapping mapping' inlines inlines' m n := by
  unfold getObjectInfo at h1 h2
  cases hk : env.parsers.peek buf with
  | other => rw [hk] at h1; cases h1
  | elf =>
    simp only [hk, fromElf] at h1 h2
    cases ho : env.parsers.elf buf with
    | error e => rw [ho] at h1; cases h1
    | ok o => rw [ho] at h1 h2; exact fromObject_Changes h1 h2
  | machO =>
    simp only [hk, fromMacho] at h1 h2
    cases ho : env.parsers.archive buf with
    | error e => rw [ho] at h1; cases h1
    | ok os =>
      rw [ho] at h1 h2
      dsimp only at h1 h2
      cases hs : selectObject arch os with
      | panic => rw [hs] at h1; cases h1
      | err e => rw [hs] at h1; cases h1
      | ok r =>
        rw [hs] at h1 h2
        cases r with
        | none => cases h1
        | some o => exact fromObject_Changes h1 h2
  | pdb =>
    simp only [hk, getPdbObjectInfo] at h1 h2
    cases ho : env.parsers.pdb buf with
    | error e => rw [ho] at h1; cases h1
    | ok o =>
      rw [ho] at h1 h2
      dsimp only at h1 h2
      cases hs : WinUtils.findPeForPdb env.net.cab (parsePe env.parsers) w.disk path o.debugId with
      | panic => rw [hs] at h1; cases h1
      | err e => rw [hs] at h1; cases h1
      | ok r =>
        rw [hs] at h1 h2
        rcases r with _ | ⟨peName, peBuf⟩
        · exact fromObject_Changes h1 h2
        · simp only [Res.bind_ok] at h1 h2
          cases hp : env.parsers.pe peBuf with
          | none => rw [hp] at h1; cases h1
          | some x => rw [hp] at h1 h2; exact fromObject_Changes h1 h2
  | pe =>
    simp only [hk] at h1 h2
    rcases getPePdb_Changes (env := env) (buf := buf) (path := path) (filename := filename) (mapping := mapping) (mapping' := mapping')
      (symbolServer := symbolServer) (inlines := inlines) (inlines' := inlines') (w := w) with ⟨x, y, e1, e2, h⟩ | e | e | ⟨e, e1, e2⟩
    · rw [e1] at h1; rw [e2] at h2; cases h1; cases h2; exact h
    · rw [e] at h1; cases h1
    · rw [e] at h2; cases h2
    · rw [e1] at h1; rw [e2] at h2
      cases h1.symm.trans h2
      exact .same ..

theorem readSingle_Changes {env : Env} {c d : Config} {path : Str} {w : Cache.World} (hs : c.symbolServer = d.symbolServer)
    (hd : c.debugId = d.debugId) (hc : c.codeId = d.codeId) (ha : c.arch = d.arch) {m n : ObjectInfo}
    (h1 : (readSingle env c path w).1 = .ok m) (h2 : (readSingle env d path w).1 = .ok n) :
    ∃ mapping mapping', Mapping.new env.map c.mappingVar c.mappingSrc c.mappingDest c.mappingFile = .ok mapping ∧
      Mapping.new env.map d.mappingVar d.mappingSrc d.mappingDest d.mappingFile = .ok mapping' ∧
      Changes env mapping mapping' c.emitInlines d.emitInlines m n := by
  unfold readSingle at h1 h2
  have hid : ∀ f, getFromId env c path f w = getFromId env d path f w := by
    intro f
    unfold getFromId
    rw [hs, hd, hc]
  have hprep : ∀ (c : Config) x a, prepare env c = .ok (x, a) →
      Mapping.new env.map c.mappingVar c.mappingSrc c.mappingDest c.mappingFile = .ok x ∧ env.parsers.arch c.arch = some a := by
    intro c x a h
    unfold prepare at h
    cases hm : Mapping.new env.map c.mappingVar c.mappingSrc c.mappingDest c.mappingFile with
    | err e => rw [hm] at h; cases h
    | panic => rw [hm] at h; cases h
    | ok y =>
      rw [hm, Res.bind_ok] at h
      cases hr : env.parsers.arch c.arch with
      | none => rw [hr] at h; cases h
      | some b => rw [hr] at h; cases h; exact ⟨rfl, rfl⟩
  cases hf : Utils.getFilename path with
  | err e => rw [hf] at h1; cases h1
  | panic => rw [hf] at h1; cases h1
  | ok filename =>
    simp only [hf, hid] at h1 h2
    cases hb : (getFromId env d path filename w).1 with
    | err e => rw [hb] at h1; cases h1
    | panic => rw [hb] at h1; cases h1
    | ok buf =>
      simp only [hb] at h1 h2
      cases hx : prepare env c with
      | err e => rw [hx] at h1; cases h1
      | panic => rw [hx] at h1; cases h1
      | ok x =>
        cases hy : prepare env d with
        | err e => rw [hy] at h2; cases h2
        | panic => rw [hy] at h2; cases h2
        | ok y =>
          obtain ⟨mapping, arch⟩ := x
          obtain ⟨mapping', arch'⟩ := y
          obtain ⟨p1, p2⟩ := hprep c _ _ hx
          obtain ⟨q1, q2⟩ := hprep d _ _ hy
          rw [ha, q2] at p2
          cases p2
          rw [hx, hs] at h1
          rw [hy] at h2
          exact ⟨mapping, mapping', p1, q1, getObjectInfo_Changes h1 h2⟩

end Dumper

namespace Run
open Dumper

/-- The second options are the first ones but for `--inlines` and the path mappings. -/
def SameOptions (o p : Options) : Prop :=
  p = { o with inlines := p.inlines, mappingVar := p.mappingVar, mappingSrc := p.mappingSrc, mappingDest := p.mappingDest, mappingFile := p.mappingFile }

/-- What a run on one file that ends with status 0 wrote, and how its module was read. -/
theorem exits_ok {env : Env} {version : Str} {cpus : Nat} {o : Options} (hla : o.listArch = false) {file : Str} (hfile : o.filenames = [file])
    {w : Cache.World} {orders : Orders} {out out' : Output.World} (h : Exits env version cpus o w orders out 0 out') :
    ∃ (c : Config) (m : ObjectInfo), Configures cpus o c ∧ c.output = Output.Out.ofOptions o.output o.store ∧ (readSingle env c file w).1 = .ok m ∧
      ∀ t, m.display (some (Infos version o)) = .ok t → (env.io.chunks t).flatten = Utf8.encode t →
        (∀ p d, c.output = .fileAndStore (.path p) d → ¬ InStore d m.fileName m.debugId p) →
        ∀ fo, Output.Requested c.output m fo → Output.Holds out out' fo ((Utf8.encode t).take (env.io.room fo)) := by
  have hex : ∀ r, exitStatus r = 0 → r = .ok () := by
    intro r hr
    cases r with
    | ok u => rfl
    | err m => cases hr
    | panic => cases hr
  generalize hc : (0 : Nat) = code at h
  cases h with
  | badInfo h => cases hc
  | acts extra r out' h ha =>
    have hr := hex r hc.symm
    obtain ⟨c, hc, hcfg⟩ := (C64_config cpus o).2 hla
    have hout : c.output = Output.Out.ofOptions o.output o.store := by
      simp only [actionOf, hla, Bool.false_eq_true, if_false, Action.dump.injEq] at hc
      rw [← hc]
    rw [hc] at ha
    cases ha with
    | several config ws r out' hlen hw hs => rw [hfile] at hlen; exact absurd rfl hlen
    | single config g hg =>
      rw [hfile] at hg; cases hg
      obtain ⟨m, h1, _, h3⟩ := C62_success_partial env (some extra) c file w out hr
      cases getExtraInfo_infos h
      exact ⟨c, m, hcfg, hout, h1, fun t a b d fo e => (h3 t a b d fo e).1⟩

/-- **C91.** Two runs on one file in the same surroundings, with options that differ in `--inlines` and the path mappings only, that both end with
status 0: they write texts of modules that agree in the MODULE, INFO and STACK records and in the FUNC and PUBLIC records, to the same destinations.  If
they agree in `--inlines`, the modules agree in everything but the texts of the FILE records, and the FILE records with the same number come from the same
path, mapped by the rules of the one and of the other run.  (`--inlines` and path mappings are not used for the symbols of a PE file alone: then the modules
are the same.) -/
theorem C91_process (env : Env) (hsha : ∀ d, ∀ b ∈ env.map.sha512 d, b < 256) (hord : ∀ l, (env.map.order l).Perm l)
    (version : Str) (cpus : Nat) (o p : Options) (hsame : SameOptions o p) (hla : o.listArch = false) (file : Str) (hfile : o.filenames = [file])
    (w : Cache.World) (orders orders' : Orders) (out1 out1' out2 out2' : Output.World)
    (h1 : Exits env version cpus o w orders out1 0 out1') (h2 : Exits env version cpus p w orders' out2 0 out2') :
    ∃ (m n : ObjectInfo) (rules rules' : List Mapping.Rule), Mapping.Configured env.map o.mappingVar o.mappingSrc o.mappingDest o.mappingFile rules ∧
      Mapping.Configured env.map p.mappingVar p.mappingSrc p.mappingDest p.mappingFile rules' ∧ m.SameButRecords n ∧
      (o.inlines = p.inlines → m = n ∨ m.SameButPaths (Mapping.MapsTo env.map rules) (Mapping.MapsTo env.map rules') n) ∧
      ∀ t u, m.display (some (Infos version o)) = .ok t → n.display (some (Infos version o)) = .ok u →
        (env.io.chunks t).flatten = Utf8.encode t → (env.io.chunks u).flatten = Utf8.encode u →
        (∀ p d, o.output = some p → o.store = some d → ¬ InStore d m.fileName m.debugId p) →
        ∀ fo, Destination o m.fileName m.debugId fo →
          Output.Holds out1 out1' fo ((Utf8.encode t).take (env.io.room fo)) ∧ Output.Holds out2 out2' fo ((Utf8.encode u).take (env.io.room fo)) := by
  obtain ⟨q1, q2, q3, q4, q5, q6, q7⟩ : p.filenames = o.filenames ∧ p.listArch = o.listArch ∧ p.output = o.output ∧ p.store = o.store ∧
      (p.debugId = o.debugId ∧ p.codeId = o.codeId) ∧ (p.symbolServer = o.symbolServer ∧ p.arch = o.arch) ∧
      Infos version p = Infos version o := by
    rw [hsame]; exact ⟨rfl, rfl, rfl, rfl, ⟨rfl, rfl⟩, ⟨rfl, rfl⟩, rfl⟩
  obtain ⟨c, m, a1, a2, a3, a4⟩ := exits_ok hla hfile h1
  obtain ⟨d, n, b1, b2, b3, b4⟩ := exits_ok (q2.trans hla) (q1.trans hfile) h2
  obtain ⟨mapping, mapping', e1, e2, e3, e4⟩ := readSingle_Changes (by rw [a1.search.1, b1.search.1, q6.1]) (by rw [a1.search.2.1, b1.search.2.1, q5.1])
    (by rw [a1.search.2.2, b1.search.2.2, q5.2]) (by rw [a1.reading.1, b1.reading.1, q6.2]) a3 b3
  rw [a1.mapping.1, a1.mapping.2.1, a1.mapping.2.2.1, a1.mapping.2.2.2] at e1
  rw [b1.mapping.1, b1.mapping.2.1, b1.mapping.2.2.1, b1.mapping.2.2.2] at e2
  rw [a1.reading.2, b1.reading.2] at e4
  obtain ⟨rules, f1, f2⟩ := C79_rules env hsha hord _ _ _ _ mapping e1
  obtain ⟨rules', g1, g2⟩ := C79_rules env hsha hord _ _ _ _ mapping' e2
  have hmaps : ∀ {mapping rules}, (∀ platform o p,
      ((cenv env platform mapping o).src.mapPanics p = true ↔ Mapping.Unreadable env.map rules p) ∧
      (¬ Mapping.Unreadable env.map rules p → ∀ r, Mapping.MapsTo env.map rules p r ↔ r = ((cenv env platform mapping o).src.mapping p).getD p)) →
      ∀ a b, mappingPanics env mapping a = false ∧ b = (mappingFn env mapping a).getD a → Mapping.MapsTo env.map rules a b := by
    intro mapping rules h a b hab
    refine ((h .linux exElf a).2 (fun hu => ?_) b).mpr hab.2
    have : mappingPanics env mapping a = true := (h .linux exElf a).1.mpr hu
    rw [hab.1] at this
    cases this
  refine ⟨m, n, rules, rules', f1, g1, e3, fun hi => ?_, ?_⟩
  · refine (e4 hi).imp id fun h => ⟨h.rest, h.symbols, h.inlineOrigins, ?_⟩
    obtain ⟨t, t1, t2⟩ := h.files
    exact ⟨t, fun e he => ⟨hmaps f2 _ _ (t1 e he).1, hmaps g2 _ _ (t1 e he).2⟩, t2⟩
  · intro t u ht hu ht' hu' hne fo hfo
    have hne' : ∀ p d, Output.Out.ofOptions o.output o.store = .fileAndStore (.path p) d → ¬ InStore d m.fileName m.debugId p := by
      intro p d h
      cases ho : o.output with
      | none => cases hs : o.store <;> (rw [ho, hs] at h; cases h)
      | some x =>
        cases hs : o.store with
        | none => rw [ho, hs] at h; cases h
        | some y =>
          rw [ho, hs] at h
          simp only [Output.Out.ofOptions, Output.Out.fileAndStore.injEq] at h
          obtain ⟨h, rfl⟩ := h
          have : x = p := by
            unfold Output.FileOutput.ofStr at h
            split at h
            · cases h
            · cases h; rfl
          subst this
          exact hne x y ho hs
    refine ⟨a4 t ht ht' (by rw [a2]; exact hne') fo ((a1.destinations m fo).mpr hfo), ?_⟩
    rw [q7] at b4
    refine b4 u hu hu' (by rw [b2, q3, q4, ← e3.fileName, ← e3.debugId]; exact hne') fo ((b1.destinations n fo).mpr ?_)
    rw [q3, q4, ← e3.fileName, ← e3.debugId]
    exact hfo

/-! ## Examples -/

/-- A file with inlined calls (`sampleF`), and the regular expression `.*`. -/
def chEnv : Env :=
  { exEnv with
    parsers := { exParsers with elf := fun _ => .ok { exElf with functions := .ok sampleFs } }
    map := { Mapping.sampleEnv with regex := fun _ => some fun s => some fun n => if n = 0 then some s else none } }

/-- `dump_syms /d/a`, with `--inlines` or not, with a path mapping or not. -/
def chOptions (inlines mapped : Bool) : Options :=
  { runOptions with
    output := none, store := none, inlines
    mappingSrc := if mapped then some [str% ".*"] else none
    mappingDest := if mapped then some [str% "M{0}"] else none }

def chWorld : Cache.World := exWorld [(str% "/d/a", .file [1] true)]

/-- The configuration of the options. -/
def chConfig (inlines mapped : Bool) : Config :=
  match actionOf 4 (chOptions inlines mapped) with
  | .dump c => c
  | .listArch => exConfig

def chModule (inlines mapped : Bool) : ObjectInfo := theObj (readSingle chEnv (chConfig inlines mapped) (str% "/d/a") chWorld).1

def chOut (inlines mapped : Bool) : Output.World :=
  (singleFile chEnv (some (Infos (str% "1") (chOptions inlines mapped))) (chConfig inlines mapped) (str% "/d/a") chWorld Output.emptyWorld).2.2

theorem chExits (inlines mapped : Bool) :
    Exits chEnv (str% "1") 4 (chOptions inlines mapped) chWorld exOrders Output.emptyWorld 0 (chOut inlines mapped) := by
  have hok : (singleFile chEnv (some (Infos (str% "1") (chOptions inlines mapped))) (chConfig inlines mapped) (str% "/d/a") chWorld Output.emptyWorld).1 =
      .ok () := by
    cases inlines <;> cases mapped <;> decide +kernel
  have := Exits.acts (env := chEnv) (version := str% "1") (cpus := 4) (o := chOptions inlines mapped) (w := chWorld) (orders := exOrders)
    (out := Output.emptyWorld) (Infos (str% "1") (chOptions inlines mapped)) _ _ (by cases inlines <;> cases mapped <;> decide +kernel)
    (Acts.single (chConfig inlines mapped) (str% "/d/a") rfl)
  rw [hok] at this
  exact this

/-- C91 applied to two of these runs. -/
example (i j a b : Bool) : ∃ (m n : ObjectInfo) (rules rules' : List Mapping.Rule),
    Mapping.Configured chEnv.map none (chOptions i a).mappingSrc (chOptions i a).mappingDest none rules ∧
    Mapping.Configured chEnv.map none (chOptions j b).mappingSrc (chOptions j b).mappingDest none rules' ∧ m.SameButRecords n ∧
    (i = j → m = n ∨ m.SameButPaths (Mapping.MapsTo chEnv.map rules) (Mapping.MapsTo chEnv.map rules') n) := by
  obtain ⟨m, n, rules, rules', h1, h2, h3, h4, _⟩ := C91_process chEnv (by
      intro d x hx
      obtain ⟨y, _, rfl⟩ := List.mem_map.mp hx
      omega) (fun l => List.reverse_perm l) (str% "1") 4 (chOptions i a) (chOptions j b) rfl rfl (str% "/d/a") rfl chWorld exOrders exOrders _ _ _ _
    (chExits i a) (chExits j b)
  exact ⟨m, n, rules, rules', h1, h2, h3, h4⟩

/-- Without `--inlines` there are no INLINE and INLINE_ORIGIN records, and the FILE records are fewer; with a path mapping only the paths differ. -/
example : (chModule true false).inlineOrigins ≠ [] ∧ (chModule false false).inlineOrigins = [] ∧
    (chModule true false).files.getMapping.length ≠ (chModule false false).files.getMapping.length ∧
    (chModule true false).symbols ≠ (chModule false false).symbols ∧ (chModule true false).symbols.bare = (chModule false false).symbols.bare ∧
    (chModule true true).symbols = (chModule true false).symbols ∧
    (chModule true true).files.getMapping = (chModule true false).files.getMapping.map (str% "M" ++ ·) := by
  decide +kernel

end Run
end DumpSyms
