import Verif.Props.Many
import Verif.Props.WinSeveralSamples
/-!
# C126: any number of files with one debug id, on a Windows machine
-/
namespace DumpSyms
open ObjectInfo Collector Reader

namespace WinHost
open Dumper (Env)
open Run (Orders Options Infos Input Possible many_answers)

/-- **C126, where at most two of the inputs with the debug id refer to source files.** The place of the debug id in the store holds one text for all inputs
that have it, however many.  Looking up an address of a function of any of them finds what its debug information says, unless a function of another one
starts from the start of the function to the address. -/
theorem C126_many_partial (env : Env) (version : Str) (cpus : Nat) (o : Options) (inputs : List Input) (w : Cache.World) (orders : Orders)
    (mapping : Option (List Mapping.Generator)) (arch : Str) (k : Nat) (dir : Str)
    (hrun : Several env version o inputs w orders mapping arch k dir) (out : Output.World) :
    ∃ rules, Mapping.Configured env.map o.mappingVar o.mappingSrc o.mappingDest o.mappingFile rules ∧
      ∀ code out', Exits env version cpus o w orders out code out' → code = 0 ∧
        ∀ id, (∃ x ∈ inputs, x.obj.debugId = id) →
          (∀ (i j k : Nat) (x y z : Input), inputs[i]? = some x → inputs[j]? = some y → inputs[k]? = some z →
            x.obj.debugId = id → y.obj.debugId = id → z.obj.debugId = id → x.Sources → y.Sources → z.Sources → i = j ∨ i = k ∨ j = k) →
          (mapping = none ∨ ∃ b, ∀ x ∈ inputs, x.obj.debugId = id → x.opts = b) →
          ∃ text file p os cpu name, readSymFile text = some file ∧ file.modules = [(os, cpu, id, name)] ∧
            InStore dir name id p ∧ out'.files p = some (Utf8.encode text) ∧
            ∀ (i : Nat) (x : Input), inputs[i]? = some x → x.obj.debugId = id →
              (x.source env mapping rules o.inlines).Answers (fun addr a => ∀ (j : Nat) (y : Input), inputs[j]? = some y → y.obj.debugId = id → j ≠ i →
                ∀ b, addr ≤ b → b ≤ a → ¬ y.StartsAt b) file.framesAt := by
  obtain ⟨rules0, _, hmain⟩ := C122_several env version cpus o inputs w orders mapping arch k dir hrun out
  obtain ⟨c, rules, g⟩ := hrun.goes cpus out
  refine ⟨rules, g.configured, ?_⟩
  intro code out' hex
  obtain ⟨hcode, hmain⟩ := hmain code out' hex
  refine ⟨hcode, ?_⟩
  rintro id ⟨x0, hx0, rfl⟩ htwo hopts
  obtain ⟨i0, hi0⟩ := List.getElem?_of_mem hx0
  obtain ⟨l, m, text, file, p, os, cpu, name, h1, h2, h3, h4, h5, h6, h7, _⟩ := hmain i0 x0 hi0
  refine ⟨text, file, p, os, cpu, name, h4, h5, h6, h7, ?_⟩
  intro i x hi hid
  have hmem : ∀ (j : Nat) (y : Input), inputs[j]? = some y → j ∈ l → y.obj.debugId = x0.obj.debugId := by
    intro j y hy hj
    obtain ⟨y', e1, e2⟩ := (h2 j).mp hj
    rw [hy] at e1; cases e1
    exact e2
  refine (many_answers hrun.hashes (fun x hm => (hrun.each w .start x hm).clear) hrun.lines hrun.size hrun.below g.dump g.maps h1
    (fun a ha b hb d hd x y z hx hy hz => htwo a b d x y z hx hy hz (hmem a x hx ha) (hmem b y hy hb) (hmem d z hz hd)) ?_ h3 h4 ((h2 i).mpr ⟨x, hi, hid⟩) hi).mono ?_
  · rcases hopts with e | ⟨b, hb⟩
    · exact .inl e
    · exact .inr ⟨b, fun j hj y hy => hb y (List.mem_of_getElem? hy) (hmem j y hy hj)⟩
  · intro addr a hon j hj hne y hy
    exact hon j y hy (hmem j y hy hj) hne

/-- **C126, without a store.** On a Windows machine, if all inputs have one debug id, every destination asked for holds one text, with the frames of each of them. -/
theorem C126_one_id_partial (env : Env) (version : Str) (cpus : Nat) (o : Options) (inputs : List Input) (w : Cache.World) (orders : Orders)
    (mapping : Option (List Mapping.Generator)) (arch : Str) (k : Nat)
    (hrun : Workable env version o inputs w orders mapping arch k) (hsome : inputs ≠ []) (id : Str) (hid : ∀ x ∈ inputs, x.obj.debugId = id)
    (htwo : ∀ (i j k : Nat) (x y z : Input), inputs[i]? = some x → inputs[j]? = some y → inputs[k]? = some z →
      x.Sources → y.Sources → z.Sources → i = j ∨ i = k ∨ j = k)
    (hopts : mapping = none ∨ ∃ b, ∀ x ∈ inputs, x.opts = b) (out : Output.World) :
    ∃ rules, Mapping.Configured env.map o.mappingVar o.mappingSrc o.mappingDest o.mappingFile rules ∧
      ∀ code out', Exits env version cpus o w orders out code out' → code = 0 ∧
        ∃ text file os cpu name, readSymFile text = some file ∧ file.modules = [(os, cpu, id, name)] ∧
          (∀ fo, Destination o name id fo → Output.Holds out out' fo (Utf8.encode text)) ∧
          ∀ (i : Nat) (x : Input), inputs[i]? = some x →
            (x.source env mapping rules o.inlines).Answers (fun addr a => ∀ (j : Nat) (y : Input), inputs[j]? = some y → j ≠ i →
              ∀ b, addr ≤ b → b ≤ a → ¬ y.StartsAt b) file.framesAt := by
  obtain ⟨c, rules, g⟩ := hrun.goes cpus out
  refine ⟨rules, g.configured, ?_⟩
  intro code out' hex
  obtain ⟨hcode, l, m, text, file, os, cpu, name, h1, h2, h3, h4, h5, h6⟩ := C122_one_id env version cpus o inputs w orders mapping arch k hrun hsome id
    hid out code out' hex
  refine ⟨hcode, text, file, os, cpu, name, h4, h5, h6, ?_⟩
  intro i x hi
  refine (many_answers hrun.hashes (fun x hm => (hrun.each w .start x hm).clear) hrun.lines hrun.size hrun.below g.dump g.maps h1
    (fun a _ b _ d _ x y z hx hy hz => htwo a b d x y z hx hy hz) ?_ h3 h4 ((h2 i).mpr (List.getElem?_eq_some_iff.mp hi).1) hi).mono ?_
  · rcases hopts with e | ⟨b, hb⟩
    · exact .inl e
    · exact .inr ⟨b, fun j _ y hy => hb y (List.mem_of_getElem? hy)⟩
  · intro addr a hon j _ hne y hy
    exact hon j y hy hne

end WinHost
end DumpSyms
