import Verif.Props.Offline
import Verif.Props.Downloads
import Verif.Props.Jobs
/-!
# C88: the whole program built without HTTP
-/
namespace DumpSyms
namespace Run
open Dumper

/-- An input that both builds treat alike: it can be read at the start and is neither a PE nor a PDB file; or no symbol server is configured
and it is not a PE file. -/
def NeedsNoServer (env : Env) (w : Cache.World) (f : Str) : Prop :=
  (∃ b, Files.readFile env.net.cab w.disk f = .ok b ∧ env.parsers.peek b ≠ .pe ∧ env.parsers.peek b ≠ .pdb) ∨
  ((∀ servers, Cache.getSymServers env.home w.disk none ≠ .ok (some servers)) ∧
    ∀ b, Files.readFile env.net.cab w.disk f = .ok b → env.parsers.peek b ≠ .pe)

theorem NeedsNoServer.notPe {env : Env} {w : Cache.World} {f : Str} (h : NeedsNoServer env w f) {b : Bytes}
    (hb : Files.readFile env.net.cab w.disk f = .ok b) : env.parsers.peek b ≠ .pe := by
  rcases h with ⟨b', h1, h2, _⟩ | ⟨_, h⟩
  · rw [h1] at hb; cases hb; exact h2
  · exact h b hb

theorem parseInput_offline {env : Env} {w w' : Cache.World} (hw : Meanwhile env w w') (config : Config) (mapping : Option (List Mapping.Generator))
    (arch : Str) {f : Str} (h : NeedsNoServer env w f) :
    (parseInput env config mapping arch f w').1 = Offline.parseInput env config mapping arch f w.disk := by
  have h1 : (parseInput env config mapping arch f w').1 = (parseInput env config mapping arch f w).1 := by
    rcases h with ⟨b, h1, h2, h3⟩ | ⟨hno, _⟩
    · exact C97_other_formats_partial hw config mapping arch f h1 h2 h3
    · exact C97_no_server_partial hw hno config mapping arch f
  rw [h1]
  unfold parseInput Offline.parseInput
  cases hf : Utils.getFilename f with
  | err m => rfl
  | panic => rfl
  | ok filename =>
    cases hr : Files.readFile env.net.cab w.disk f with
    | err m => simp [Bind.bind, Res.bind]
    | panic => simp [Bind.bind, Res.bind]
    | ok b =>
      simp only [Bind.bind, Res.bind]
      rw [Offline.getObjectInfo_same env f filename mapping arch none config.emitInlines w (h.notPe hr)]

theorem threads_offline {env : Env} (extra : Option (List Str)) (config : Config) {files : List Str} {w : Cache.World} {ws : Nat → Cache.World}
    (hw : ∀ i, Meanwhile env w (ws i)) (h : ∀ f ∈ files, NeedsNoServer env w f) (orders : Orders)
    (mapping : Option (List Mapping.Generator)) (arch : Str) (out : Output.World) :
    threads env extra config files ws orders mapping arch out = Offline.threads env extra config files w.disk orders mapping arch out := by
  unfold threads Offline.threads
  congr 1
  funext i
  cases hi : files[i]? with
  | none => rfl
  | some f => exact parseInput_offline (hw i) config mapping arch (h f (List.mem_of_getElem? hi))

theorem several_offline {env : Env} {extra : Option (List Str)} {config : Config} {files : List Str} {w : Cache.World} {ws : Nat → Cache.World}
    (hw : ∀ i, Meanwhile env w (ws i)) (h : ∀ f ∈ files, NeedsNoServer env w f) {orders : Orders} {out : Output.World} {r : Res Unit}
    {out' : Output.World} :
    SeveralFiles env extra config files ws orders out r out' ↔ Offline.SeveralFiles env extra config files w.disk orders out r out' := by
  have ht := fun mapping arch => threads_offline extra config hw h orders mapping arch out
  constructor
  · intro hs
    cases hs with
    | badOptions m h => exact .badOptions m h
    | badMapping h => exact .badMapping h
    | returned mapping arch m h hr hs => rw [ht] at hr hs; exact .returned mapping arch m h hr hs
    | crashed mapping arch m h hr hs => rw [ht] at hr; exact .crashed mapping arch m h hr hs
  · intro hs
    cases hs with
    | badOptions m h => exact .badOptions m h
    | badMapping h => exact .badMapping h
    | returned mapping arch m h hr hs => rw [← ht] at hr hs; exact .returned mapping arch m h hr hs
    | crashed mapping arch m h hr hs => rw [← ht] at hr; exact .crashed mapping arch m h hr hs

/-- **C88, the whole program.** Built without HTTP, the program can end in exactly the ways the full program can, with the same exit status and the
same files and texts written, when no id is given and every input can do without a symbol server.  Missing: PE files (`C88_witness`), and PDB files
when a symbol server is configured, whose PE may be downloaded meanwhile by another worker. -/
theorem C88_program_partial (env : Env) (version : Str) (cpus : Nat) (o : Options) (w : Cache.World) (orders : Orders) (out : Output.World)
    (h1 : o.debugId = none) (h2 : o.codeId = none) (h : ∀ f ∈ o.filenames, NeedsNoServer env w f) (status : Nat) (out' : Output.World) :
    Offline.Exits env version cpus o w.disk orders out status out' ↔ Exits env version cpus o w orders out status out' := by
  have hc : ∀ config, actionOf cpus o = .dump config → config.debugId = none ∧ config.codeId = none := by
    intro config hc
    unfold actionOf at hc
    split at hc
    · cases hc
    · cases hc; exact ⟨h1, h2⟩
  have hone : ∀ extra config f, actionOf cpus o = .dump config → o.filenames = [f] →
      Dumper.singleFile env extra config f w out =
        ((Offline.singleFile env extra config f w.disk out).1, w, (Offline.singleFile env extra config f w.disk out).2) := by
    intro extra config f ha hf
    exact Offline.C88_same_partial env extra config f w out (hc config ha).1 (hc config ha).2
      fun b hb => (h f (by rw [hf]; simp)).notPe hb
  constructor
  · intro hx
    cases hx with
    | badInfo h => exact .badInfo h
    | acts extra r _ he ha =>
      refine .acts extra r _ he ?_
      generalize hact : actionOf cpus o = a at ha ⊢
      cases ha with
      | list => exact .list
      | single config f hf =>
        have := Acts.single (env := env) (extra := some extra) (w := w) (orders := orders) (out := out) config f hf
        rw [hone (some extra) config f hact hf] at this
        exact this
      | several config r out' hf hs => exact .several config (fun _ => w) r out' hf (fun _ => .start) ((several_offline (fun _ => .start) h).mpr hs)
  · intro hx
    cases hx with
    | badInfo h => exact .badInfo h
    | acts extra r _ he ha =>
      refine .acts extra r _ he ?_
      generalize hact : actionOf cpus o = a at ha ⊢
      cases ha with
      | list => exact .list
      | single config f hf =>
        have := Offline.Acts.single (env := env) (extra := some extra) (d := w.disk) (orders := orders) (out := out) config f hf
        rw [hone (some extra) config f hact hf]
        exact this
      | several config ws r out' hf hw hs => exact .several config r out' hf ((several_offline hw h).mp hs)

/-- The run on `/d/a` (an ELF file) and `/d/c` (a Mach-O file) of `Props/Jobs`, by a program built without HTTP. -/
example : Offline.Exits exEnv2 (str% "1.0") 4 (jobOptions false) exDisk3.disk exOrders Output.emptyWorld 0 (jobLast false).out ∧
    ((jobLast false).out.files (str% "/s/c/D1/c.sym")).isSome := by
  refine ⟨(C88_program_partial exEnv2 _ _ _ exDisk3 _ _ rfl rfl ?_ _ _).mpr jobRun_exits, by decide +kernel⟩
  intro f hf
  have hf : f = str% "/d/a" ∨ f = str% "/d/c" := by
    simpa [jobOptions] using hf
  rcases hf with rfl | rfl
  · exact .inl ⟨_, rfl, by decide, by decide⟩
  · exact .inl ⟨_, rfl, by decide, by decide⟩

end Run
end DumpSyms
