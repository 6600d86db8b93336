import Verif.Model.Offline
import Verif.Props.Cli
/-!
# C92: the defaults of the library
-/
namespace DumpSyms
namespace Offline
open Dumper CommandLine

/-- **C92.** `Config::with_output` gives the configuration of a command line with `--check-cfi`, `--inlines`, `-j 1`, and no option but those that say
where the output goes or are not used for dumping (`--verbose`, `--type`, `--extra-info`, `--no-generator`). -/
theorem C92_defaults (arch : Str) (cpus : Nat) (items : List Item) (o : Run.Options) (h : Means (Cli.compileTimeArch arch) items o)
    (hcfi : .flag .checkCfi ∈ items) (hinl : .flag .inlines ∈ items) (hlist : .flag .listArch ∉ items) (hjobs : valuesOf items .jobs = [str% "1"])
    (hrest : ∀ x ∈ [Opt.debugId, .codeId, .symbolServer, .arch, .mappingVar, .mappingSrc, .mappingDest, .mappingFile], ∀ v, .opt x v ∉ items) :
    Run.actionOf cpus o = .dump (withOutput arch (Output.Out.ofOptions o.output o.store)) := by
  have hv : ∀ x ∈ [Opt.debugId, .codeId, .symbolServer, .arch, .mappingVar, .mappingSrc, .mappingDest, .mappingFile], valuesOf items x = [] := by
    intro x hx
    refine List.filterMap_eq_nil_iff.mpr fun i hi => ?_
    cases i with
    | file f => rfl
    | flag f => rfl
    | opt y v =>
      have : y ≠ x := by rintro rfl; exact hrest y hx v hi
      simp [this]
  have e1 := h.debugId
  have e2 := h.codeId
  have e3 := h.symbolServer
  have e4 := h.arch
  have e5 := h.mappingVar
  have e6 := h.mappingSrc
  have e7 := h.mappingDest
  have e8 := h.mappingFile
  have e9 := h.numJobs
  rw [hv _ (by decide)] at e1 e2 e3 e4 e5 e6 e7 e8
  rw [hjobs] at e9
  have hl : o.listArch = false := Bool.eq_false_iff.mpr fun hh => hlist (h.listArch.mp hh)
  have hn : Main.numJobs cpus (str% "1") = 1 := rfl
  unfold Run.actionOf withOutput
  rw [hl, e1, e2, e3, e4, e5, e6, e7, e8, e9, h.checkCfi.mpr hcfi, h.inlines.mpr hinl]
  rfl

/-- C92 applied to `dump_syms --check-cfi --inlines -j 1 -o x -s y a`; the defaults of the program are others. -/
example (cpus : Nat) : (∃ o, Cli.parse (Cli.compileTimeArch (str% "aarch64"))
      [str% "--check-cfi", str% "--inlines", str% "-j", str% "1", str% "-o", str% "x", str% "-s", str% "y", str% "a"] = .ok o ∧
      Run.actionOf cpus o = .dump (withOutput (str% "aarch64") (.fileAndStore (.path (str% "x")) (str% "y")))) ∧
    (∃ o, Cli.parse (Cli.compileTimeArch (str% "aarch64")) [str% "-o", str% "x", str% "-s", str% "y", str% "a"] = .ok o ∧
      ∀ arch, Run.actionOf cpus o ≠ .dump (withOutput arch (.fileAndStore (.path (str% "x")) (str% "y")))) := by
  refine ⟨⟨_, rfl, ?_⟩, ⟨_, rfl, ?_⟩⟩
  · exact C92_defaults (str% "aarch64") cpus
      [.flag .checkCfi, .flag .inlines, .opt .jobs (str% "1"), .opt .output (str% "x"), .opt .store (str% "y"), .file (str% "a")] _
      ⟨rfl, rfl, rfl, rfl, rfl, rfl, by decide, rfl, by decide, rfl, rfl, rfl, rfl, rfl, by decide, rfl, by decide⟩ (by decide) (by decide) (by decide)
      (by decide) (by
        intro x hx v hi
        simp only [List.mem_cons, reduceCtorEq, Item.opt.injEq, List.not_mem_nil, or_false, false_or] at hi hx
        rcases hi with ⟨rfl, _⟩ | ⟨rfl, _⟩ | ⟨rfl, _⟩ <;> simp at hx)
  · intro arch h
    have := congrArg (fun a => match a with | Run.Action.dump c => c.checkCfi | .listArch => true) h
    cases this

/-- The architectures that a build can be for and that have a name of their own: Rust's name and the name the tool uses. -/
def architectures : List (Str × Str) :=
  [(str% "x86", str% "x86"), (str% "x86_64", str% "x86_64"), (str% "arm", str% "arm"), (str% "aarch64", str% "arm64"), (str% "mips", str% "mips"),
   (str% "mips64", str% "mips64"), (str% "powerpc", str% "ppc"), (str% "powerpc64", str% "ppc64")]

/-- **C92**, the architecture: without `--arch` it is the one of the build, under the name the tool uses, in the program and in the library. -/
theorem C92_arch (arch name : Str) (h : (arch, name) ∈ architectures ∨ name = str% "unknown" ∧ ∀ n, (arch, n) ∉ architectures) :
    (∀ out, (withOutput arch out).arch = name) ∧
    ∀ items o, Means (Cli.compileTimeArch arch) items o → (∀ v, .opt .arch v ∉ items) → o.arch = name := by
  have key : Cli.compileTimeArch arch = name := by
    rcases h with h | ⟨rfl, h⟩
    · simp only [architectures, List.mem_cons, Prod.mk.injEq, List.not_mem_nil, or_false] at h
      rcases h with ⟨rfl, rfl⟩ | ⟨rfl, rfl⟩ | ⟨rfl, rfl⟩ | ⟨rfl, rfl⟩ | ⟨rfl, rfl⟩ | ⟨rfl, rfl⟩ | ⟨rfl, rfl⟩ | ⟨rfl, rfl⟩ <;> rfl
    · have hne : ∀ a n, (a, n) ∈ architectures → arch ≠ a := by rintro a n hm rfl; exact h n hm
      unfold Cli.compileTimeArch
      rw [if_neg (hne _ (str% "x86") (by decide)), if_neg (hne _ (str% "x86_64") (by decide)), if_neg (hne _ (str% "arm") (by decide)),
        if_neg (hne _ (str% "arm64") (by decide)), if_neg (hne _ (str% "mips") (by decide)), if_neg (hne _ (str% "mips64") (by decide)),
        if_neg (hne _ (str% "ppc") (by decide)), if_neg (hne _ (str% "ppc64") (by decide))]
  refine ⟨fun _ => key, fun items o hm hno => ?_⟩
  have e := hm.arch
  have : valuesOf items .arch = [] := by
    refine List.filterMap_eq_nil_iff.mpr fun i hi => ?_
    cases i with
    | file f => rfl
    | flag f => rfl
    | opt y v =>
      have : y ≠ .arch := by rintro rfl; exact hno v hi
      simp [this]
  rw [this] at e
  rw [← key]
  exact e

/-- C92_arch for a build for `aarch64`, and for an architecture without a name. -/
example : (withOutput (str% "aarch64") (Output.Out.ofOptions none none)).arch = str% "arm64" ∧
    (withOutput (str% "riscv64") (Output.Out.ofOptions none none)).arch = str% "unknown" :=
  ⟨(C92_arch _ _ (.inl (by decide))).1 _, (C92_arch _ _ (.inr ⟨rfl, by
    intro n h
    simp only [architectures, List.mem_cons, Prod.mk.injEq, List.not_mem_nil, or_false] at h
    rcases h with ⟨h, _⟩ | ⟨h, _⟩ | ⟨h, _⟩ | ⟨h, _⟩ | ⟨h, _⟩ | ⟨h, _⟩ | ⟨h, _⟩ | ⟨h, _⟩ <;> revert h <;> decide⟩)).1 _⟩

end Offline
end DumpSyms
