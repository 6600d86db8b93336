import Verif.Props.Search
import Verif.Props.Output
import Verif.Props.Described
import Verif.Props.Names
import Verif.Props.Embedded
import Verif.Props.Header
import Verif.Props.Inputs
import Verif.Props.Main
import Verif.Props.Copies
import Verif.Props.Offline
import Verif.Props.Again
import Verif.Props.Hosts
import Verif.Props.Reported
import Verif.Props.ThreadsFail
import Verif.Props.WinHost
import Verif.Props.Readable
import Verif.Props.Records
/-!
# The theorems applied

One run or one module for each of a number of theorems, to show that their hypotheses can be met together.
-/
namespace DumpSyms

namespace Output

/-- C29 applied: the sample printed to a file and to a store. -/
example : ∃ w' p, store goodDisk none (.fileAndStore (.path (str% "a.sym")) (str% "s")) true printSample emptyWorld = (.ok (), w') ∧
    (∃ t, printSample.display none = .ok t ∧ w'.files (str% "a.sym") = some (Utf8.encode t)) ∧
    InStore (str% "s") printSample.fileName printSample.debugId p ∧ w'.files p = w'.files (str% "a.sym") := by
  cases ht : printSample.display none with
  | ok t =>
    have hlen : (Utf8.encode t).length ≤ 1000000 := by
      have : (Utf8.encode (match printSample.display none with | .ok t => t | _ => [])).length ≤ 1000000 := by decide +kernel
      rwa [ht] at this
    obtain ⟨w', p, h1, h2, h3, h4⟩ := C29_same_bytes goodDisk none (str% "a.sym") (str% "s") true printSample emptyWorld (by decide) (by decide)
      (fun _ => by decide) ht (by simp [goodDisk, fullDisk]) (fun _ => rfl) (fun _ => rfl) (fun _ => hlen)
    exact ⟨w', p, h1, ⟨t, rfl, h2⟩, h3, h4⟩
  | err m => exact absurd ht (by intro h; have : (match printSample.display none with | .ok _ => true | _ => false) = true := by decide +kernel
                                 rw [h] at this; cases this)
  | panic => exact absurd ht (by intro h; have : (match printSample.display none with | .ok _ => true | _ => false) = true := by decide +kernel
                                 rw [h] at this; cases this)

/-- C30 applied: a disk whose buffer is smaller than the sample's text reports the failure. -/
example (t : Str) (ht : printSample.display none = .ok t) :
    (store { fullDisk with capacity := 10 } none (.file (.path (str% "a.sym"))) true printSample emptyWorld).1 ≠ .ok () :=
  C30_reported _ none _ true printSample emptyWorld ht (by simp [fullDisk]) (by decide) (fun p d h => by cases h) (fo := .path (str% "a.sym"))
    (.file (.inl rfl)) (by
      have : 10 < (Utf8.encode (match printSample.display none with | .ok t => t | _ => [])).length := by decide +kernel
      rw [ht] at this
      simpa [fullDisk] using this)

/-- C30 applied: a run that succeeds has written the whole text, when there is room. -/
example (t : Str) (ht : printSample.display none = .ok t) :
    Holds emptyWorld (store goodDisk none (.file (.path (str% "a.sym"))) true printSample emptyWorld).2 (.path (str% "a.sym"))
      ((Utf8.encode t).take (goodDisk.room (.path (str% "a.sym")))) :=
  (C30_success_partial goodDisk none _ true printSample emptyWorld ht (by simp [goodDisk, fullDisk]) (by decide) (fun p d h => by cases h)
    (by decide +kernel) (.file (.inl rfl))).1

end Output
namespace Cache

/-- C45 applied: the second of two caches has the file; nothing is asked for. -/
example : let w : World := ⟨fun p => if p = str% "/d/m.dll/ID/m.dl_" then some (.file [7] true) else none, []⟩
    (∀ b, (searchFile (exNet 1000 (200, [1]) (fun _ => none)) (str% "m.dl_") (str% "ID")
      (some [⟨none, str% "http://a"⟩, ⟨some (str% "/c/"), str% "http://b"⟩, ⟨some (str% "/d"), str% "http://c"⟩]) w).1 = .ok (some b) ↔
        PathHolds (fun _ => none) w.disk (str% "/d/m.dll/ID/m.dl_") b) :=
  (C45_cached _ _ _ _ _ _ (by unfold ProperComp; decide) (by unfold ProperComp; decide) (by
      intro q es h
      simp only at h
      split at h <;> cases h)
    ((firstCached_iff (by unfold ProperComp; decide) (by unfold ProperComp; decide)).mpr (by decide))).1

/-- C45 applied: the search that downloads had found nothing in the cache. -/
example : ∃ ss, some exServers = some ss ∧ NotCached noWorld.disk ss (str% "m.pdb") (str% "ID") :=
  C45_network_last (exNet 1000 (200, [77, 1, 2, 3]) exCab) (str% "m.pdb") (str% "ID") (some exServers) noWorld
    (by unfold ProperComp; decide) (by unfold ProperComp; decide) (by
      intro h
      have := congrArg (fun w => w.log.length) h
      revert this
      decide)

/-- C46 applied: what was downloaded is found again by a search without network, after another search of the same file. -/
example : let w1 := (searchFile (exNet 1000 (200, [77, 1, 2, 3]) exCab) (str% "m.pdb") (str% "ID") (some exServers) noWorld).2
    let w2 := (searchFile (exDown exCab) (str% "m.pdb") (str% "ID") (some exServers) w1).2
    let w3 := (searchFile (exNet 1000 (200, [5]) exCab) (str% "m.pdb") (str% "OTHER") (some exServers) w2).2
    searchFile (exDown exCab) (str% "m.pdb") (str% "ID") (some exServers) w3 = (.ok (some [1, 2, 3]), w3) := by
  intro w1 w2 w3
  refine C46_served_back (net := exNet 1000 (200, [77, 1, 2, 3]) exCab) (w := noWorld) (by unfold ProperComp; decide) (by unfold ProperComp; decide)
    (fun q es h => by cases h) ?_ ?_ (Prod.ext (by decide) rfl) ?_ ?_ _ rfl
  · intro u st raw p h
    simp only [exNet] at h ⊢
    split at h <;> cases h; decide
  · intro js j h; exact (List.mem_filter.mp h).1
  · intro h
    have := congrFun h (str% "/c/m.pdb/ID/m.pdb")
    revert this
    decide
  · exact .other (exNet 1000 (200, [5]) exCab) (str% "OTHER") (str% "m.pdb") (some exServers)
      (fun js j h => (List.mem_filter.mp h).1) (by unfold ProperComp; decide) (by unfold ProperComp; decide)
      (by show (str% "OTHER", str% "m.pdb") ≠ (str% "ID", str% "m.pdb"); decide)
      (.same (exDown exCab) rfl (.refl _))

/-- C46 applied: a page that says "Symbol Not Found" is not stored. -/
example : let r := searchFile (exNet 1000 (200, Utf8.encode (str% "Symbol Not Found: x")) exCab) (str% "m.pdb") (str% "ID") (some exServers) noWorld
    r.1 = .ok none ∧ r.2.disk = noWorld.disk :=
  C46_refused (exNet 1000 (200, Utf8.encode (str% "Symbol Not Found: x")) exCab) (str% "m.pdb") (str% "ID") exServers noWorld
    (by unfold ProperComp; decide) (by unfold ProperComp; decide)
    (jobs := [⟨some (str% "/c/m.pdb/ID/m.pdb"), str% "http://s/m.pdb/ID/m.pdb"⟩, ⟨some (str% "/c/m.pdb/ID/m.pdb"), str% "http://s/m.pdb/ID/m.pd_"⟩])
    (j := ⟨some (str% "/c/m.pdb/ID/m.pdb"), str% "http://s/m.pdb/ID/m.pd_"⟩) (js := []) (st := 200) (raw := Utf8.encode (str% "Symbol Not Found: x"))
    ((notCached_iff (by unfold ProperComp; decide) (by unfold ProperComp; decide)).mpr (by decide))
    ((askedAll_iff (by unfold ProperComp; decide) (by unfold ProperComp; decide)).mpr (by decide)) (by decide) (by decide)
    (.inr (by decide))
end Cache

open Collector ObjectInfo Reader

/-- C55 applied: the option and the line naming the program come after the header of the sample. -/
example (t : Str) (ht : printSample.display none = .ok t) : ∃ head rest,
    t = head ++ rest ∧ printSample.display (some [str% "VENDOR a b", str% "GENERATOR mozilla/dump_syms 2.3.5"]) =
      .ok (head ++ str% "INFO VENDOR a b\n" ++ str% "INFO GENERATOR mozilla/dump_syms 2.3.5\n" ++ rest) := by
  obtain ⟨extra, head, rest, h1, h2, _, h3⟩ := Main.C55_printed (str% "2.3.5") (some [str% "VENDOR a b"]) false (by
    intro v hv; cases List.mem_singleton.mp hv; exact ⟨str% "VENDOR", str% "a b", rfl, by decide, by decide⟩) printSample t ht
  have : extra = [str% "VENDOR a b", str% "GENERATOR mozilla/dump_syms 2.3.5"] := by
    have e : Main.getExtraInfo (str% "2.3.5") (some [str% "VENDOR a b"]) false = .ok [str% "VENDOR a b", str% "GENERATOR mozilla/dump_syms 2.3.5"] := by
      decide
    rw [e] at h1
    cases h1
    rfl
  subst this
  exact ⟨head, rest, h2, h3⟩

/-- C57 applied: the PDB beside the PE. -/
example (b : Bytes) : WinUtils.osSpecificTryToFindPdb WinUtils.noCab Dumper.pairWorld.disk (str% "/w") (str% "/d/a.dll") (str% "C:\\x/m.pdb") =
      .ok (some b, str% "m.pdb") ↔ PathHolds WinUtils.noCab Dumper.pairWorld.disk (str% "/d/m.pdb") b :=
  ((WinUtils.C57_places_partial (cab := WinUtils.noCab) (d := Dumper.pairWorld.disk)
    (ps := [str% "C:/x/m.pdb", str% "/d/m.pdb", str% "/d/m.pd_", str% "/m.pdb"]) Dumper.pairSane.dirs (by decide) ⟨str% "C:/x/", .inr rfl, rfl⟩
    (.mk (str% "/d/") (str% "/") (str% "m")
      (.inDir (str% "/d") (str% "/") (str% "a.dll") rfl (by decide) (by decide) (by decide) .one (by unfold ProperComp; decide))
      (.root (str% "/") (str% "w") rfl .one (by unfold ProperComp; decide)) (.ext (str% "m") (str% "pdb") (by decide) (by decide)))).1
    [str% "C:/x/m.pdb"] _ _ rfl (by rintro q hq ⟨raw, r, h⟩; cases List.mem_singleton.mp hq; cases h) ⟨[2], true, rfl⟩).1 b

namespace Dumper

/-- C60 applied: no PDB is there, and the PE is dumped alone under the name of the PDB that it records. -/
example : ∃ name, AfterLast '\\' (str% "C:\\x/m.pdb") name ∧
    getObjectInfo exEnv [3] (str% "/d/" ++ str% "a.dll") (str% "a.dll") none (str% "x86_64") none false (exWorld []) =
      (fromObject exEnv (exObj .pe (str% "A1") (str% "x86") none) name none (some (str% "a.dll")) .win none false, exWorld []) :=
  C60_fallback_partial exEnv (.inr rfl) (by unfold ProperComp; decide) (recorded := some (str% "C:\\x/m.pdb")) none (exSane rfl rfl)
    (by
      intro pe rec h
      cases h
      refine ⟨by unfold ProperComp; decide, ?_⟩
      intro r hr
      cases hr
      exact .inr ⟨str% "C:/x/", str% "m.pdb", rfl, .inr rfl, by unfold ProperComp; decide⟩) rfl rfl
    (.noConfig (str% "/home/u") rfl rfl) (found := none)
    ((.searched (str% "C:\\x/m.pdb") (str% "m.pdb") _ none _ rfl
      (.mk (str% "/d/") (str% "/") (str% "m")
        (.inDir (str% "/d") (str% "/") (str% "a.dll") rfl (by decide) (by decide) (by decide) .one (by unfold ProperComp; decide))
        (.root (str% "/") (str% "w") rfl .one (by unfold ProperComp; decide)) (.ext (str% "m") (str% "pdb") (by decide) (by decide)))
      (by rintro q hq ⟨raw, r, h⟩; cases h) (.noServers ..))) (by intro b n o fs h; cases h) none _ false

/-- C62 applied: the sample run writes everything. -/
example : ∃ o t, (readSingle exEnv exConfig (str% "/d/a") (exWorld [(str% "/d/a", .file [1] true)])).1 = .ok o ∧ o.display none = .ok t ∧
    (singleFile exEnv none exConfig (str% "/d/a") (exWorld [(str% "/d/a", .file [1] true)]) Output.emptyWorld).1 = .ok () ∧
    Output.Holds Output.emptyWorld (singleFile exEnv none exConfig (str% "/d/a") (exWorld [(str% "/d/a", .file [1] true)]) Output.emptyWorld).2.2
      (.path (str% "out.sym")) (Utf8.encode t) := by
  obtain ⟨o, ho⟩ : ∃ o, (readSingle exEnv exConfig (str% "/d/a") (exWorld [(str% "/d/a", .file [1] true)])).1 = .ok o := ⟨_, rfl⟩
  obtain ⟨t, ht⟩ : ∃ t, o.display none = .ok t := by cases ho; exact ⟨_, rfl⟩
  have hlen : (Utf8.encode t).length ≤ 1000000 := by
    cases ho
    cases ht
    decide +kernel
  have := C62_complete exEnv none exConfig (str% "/d/a") (exWorld [(str% "/d/a", .file [1] true)]) Output.emptyWorld ho (by intro h; cases h) ht
    (by simp [exEnv, Output.goodDisk, Output.fullDisk]) (fun _ => rfl) (fun _ => rfl) (fun _ => hlen)
  exact ⟨o, t, ho, ht, this.1, this.2 _ (.file (.inl rfl))⟩

/-- C62 applied to a disk with room for 5 bytes and a buffer of 3 bytes less than the text. -/
example (h : (singleFile { exEnv with io := { Output.goodDisk with room := fun _ => 5 } } none exConfig (str% "/d/a") (exWorld [(str% "/d/a", .file [1] true)])
      Output.emptyWorld).1 = .ok ()) :=
  C62_success_partial _ _ _ _ _ _ h
example : (singleFile { exEnv with io := { Output.goodDisk with room := fun _ => 5 } } none exConfig (str% "/d/a") (exWorld [(str% "/d/a", .file [1] true)])
      Output.emptyWorld).1 = .ok () := by decide +kernel

/-- C63 applied: the module of the ELF file goes below the store. -/
example : ∃ info p, (getObjectInfo exEnv [1] (str% "/d/a") (str% "a") none (str% "x86_64") none true (exWorld [])).1 = .ok info ∧
    InStore (str% "/store") info.fileName info.debugId p ∧ Below (str% "/store") p := by
  obtain ⟨info, hi⟩ : ∃ info, (getObjectInfo exEnv [1] (str% "/d/a") (str% "a") none (str% "x86_64") none true (exWorld [])).1 = .ok info := ⟨_, rfl⟩
  obtain ⟨p, h1, h2⟩ := C63_store_partial hi (by cases hi; unfold ProperComp; decide) (by cases hi; decide) (str% "/store")
  exact ⟨info, p, hi, h1, h2⟩

/-- C74 and C81 applied to an ELF file. -/
example : ∃ info o name pe peName platform opts,
    getObjectInfo exEnv [1] (str% "/d/" ++ str% "a") (str% "a") none (str% "x86_64") none true (exWorld []) = (.ok info, exWorld []) ∧
    DumpedFrom exEnv [1] (str% "/d/" ++ str% "a") (str% "a") (str% "x86_64") none (exWorld []) o name pe peName platform opts (exWorld []) := by
  obtain ⟨info, hi⟩ : ∃ info, getObjectInfo exEnv [1] (str% "/d/" ++ str% "a") (str% "a") none (str% "x86_64") none true (exWorld []) =
      (.ok info, exWorld []) := ⟨_, rfl⟩
  rcases C74_options_partial exEnv [1] (str% "/d/") (str% "a") none (str% "x86_64") none true (exWorld []) (exWorld []) info (.inr rfl)
    (by unfold ProperComp; decide) (exSane rfl rfl) (fun pe rec h => by cases h) hi with ⟨o, name, pe, peName, platform, h, _⟩ | ⟨o, name, h, _⟩
  · exact ⟨info, o, name, pe, peName, platform, true, hi, h⟩
  · exact ⟨info, o, name, _, _, _, _, hi, h⟩

/-- C81 applied: a Mach-O archive with the wanted architecture as its second readable slice. -/
example : getObjectInfo exEnv [4] (str% "/d/" ++ str% "a") (str% "a") none (str% "x86_64") none true (exWorld []) =
    (fromObject exEnv (exObj .machO (str% "D2") (str% "x86_64") none) (str% "a") none none .mac none true, exWorld []) :=
  C81_complete exEnv (str% "x86_64") none (.inr rfl) (by unfold ProperComp; decide) (exSane rfl rfl) (fun pe rec h => by cases h)
    (opts := true) (.machoOf _ [none, some (exObj .machO (str% "D1") (str% "arm64") none)]
      [some (exObj .machO (str% "D3") (str% "x86_64") none)] rfl rfl (.inl (by simp)) rfl
      (by intro x hx; simp at hx; subst hx; decide)) none true

end Dumper

/-- C75 applied: the sample function, and a symbol with the same name. -/
example : ∃ st sym m s, collectFunctions cxxEnv true sampleFs State.new = .ok st ∧ st.syms.get? 0x1000 = some sym ∧
    collectPublic cxxEnv .linux ⟨some (str% "f"), 0x1000, 4⟩ [] = .ok m ∧ m.get? 0x1000 = some s ∧ s.name = sym.name := by
  obtain ⟨m', hm⟩ : ∃ m', collectPublic cxxEnv .linux ⟨some (str% "f"), 0x1000, 4⟩ [] = .ok m' := ⟨_, rfl⟩
  have hcon : ¬ (⟨some (str% "f"), 0x1000, 4⟩ : Public).IsConstant := by
    rintro ⟨n, h, hc⟩
    cases h
    revert hc
    rw [← shouldSkipSymbol_iff]
    decide
  obtain ⟨st, sym, s, h1, h2, h3, h4, _⟩ := C75_same_name_partial cxxEnv sampleMem sampleU sampleV true sampleFs
    ⟨sampleInputOk.paths, sampleInputOk.names, sampleInputOk.sort, sampleInputOk.funcs⟩ 0x1000 sampleF
    [.mk 0x1000 4 (nm (str% "f2")) sampleComp [] []] rfl (str% "f") rfl (by decide) (by decide) .linux (by decide)
    ⟨some (str% "f"), 0x1000, 4⟩ rfl hcon [] m' List.Pairwise.nil (by intro a s h; cases h) rfl (by rintro ⟨b, s, ⟨h, _⟩, _⟩; cases h) hm
  exact ⟨st, sym, m', s, h1, h2, hm, h3, h4⟩

/-- C76 applied. -/
example : ∃ ps, (embedded 2).Embeds ps ∧ fromObject sampleCEnv false .linux (embedded 2) (str% "a") none none =
    fromObject sampleCEnv false .linux ((embedded 2).stripEmbedded ps) (str% "a") none none := by
  obtain ⟨ps, h1, _, h2⟩ := C76_embedded_partial sampleCEnv false .linux (embedded 2) (str% "a") none none (embedded_inside (by decide))
  exact ⟨ps, h1, h2⟩

/-- C84 applied to the sample PE. -/
example : ∃ text file, recObj.display (some [str% "GENERATOR x"]) = .ok text ∧ readSymFile text = some file ∧
    (sourceOf sampleCEnv .win recInput sampleFs (recInput.publics ++ []) (str% "f.dll") none (some (str% "g.dll")) true).Describes [str% "GENERATOR x"] file := by
  obtain ⟨o, text, file, h1, h2, h3, h4⟩ := C84_described sampleCEnv sampleMem sampleU sampleV .win recInput sampleFs recInput_ok true (str% "f.dll") none
    (some (str% "g.dll")) recInput_plain [str% "GENERATOR x"] (by intro l hl; simp at hl; subst hl; unfold OneLine; decide)
    (by intro _ _ l hl; simp at hl; subst hl; decide) [] recInput_embeds
  have : o = recObj := by
    have e : fromObject sampleCEnv true .win recInput (str% "f.dll") none (some (str% "g.dll")) = .ok recObj := rfl
    rw [e] at h1; cases h1; rfl
  subst this
  exact ⟨text, file, h2, h3, h4⟩

/-- C11 applied: the second line of the sample function, at an address covered by an inlined call. -/
example : ∃ st sym fileId, collectFunctions sampleCEnv false sampleFs State.new = .ok st ∧ st.syms.get? 0x1000 = some sym ∧
    lookupLine sym.source.lines 0x1015 = some (11, fileId) := by
  obtain ⟨st, sym, h1, h2, h3, _⟩ := C11_lines_without_inlines sampleCEnv sampleMem sampleU sampleV sampleFs sampleInputOk 0x1000 sampleF
    [.mk 0x1000 4 (nm (str% "f2")) sampleComp [] []] rfl (by decide) (by decide) (by decide)
  obtain ⟨fileId, p, h, _⟩ := h3 [⟨0x1000, some 0x10, sampleFile1, 10⟩] ⟨0x1010, some 0x10, sampleFile2, 11⟩ [] 0x1015 rfl (by decide) (by decide)
    (by decide) (by simp)
  exact ⟨st, sym, fileId, h1, h2, h⟩

/-- C12 and C13 applied: an address in `h`, inlined into `g`, inlined into `f`. -/
example : ∃ st sym fileId, collectFunctions sampleCEnv true sampleFs State.new = .ok st ∧ st.syms.get? 0x1000 = some sym ∧
    lookupLine sym.source.lines 0x1006 = some (70, fileId) := by
  obtain ⟨st, sym, h1, h2, h3⟩ := C12_innermost_line sampleCEnv sampleMem sampleU sampleV sampleFs sampleInputOk 0x1000 sampleF
    [.mk 0x1000 4 (nm (str% "f2")) sampleComp [] []] rfl (by decide) sampleF_wf sampleF_nogap (by decide)
  obtain ⟨fileId, p, h, _⟩ := h3 0x1006 ⟨0x1006, some 2, sampleFile3, 70⟩ sampleComp
    (.inl _ sampleG _ _ _ (by simp [sampleF, Func.inlinees]) ⟨_, List.mem_cons_self, ⟨by decide, by decide⟩⟩
      (.inl _ sampleH _ _ _ (by simp [sampleG, Func.inlinees]) ⟨_, List.mem_cons_self, ⟨by decide, by decide⟩⟩
        (.self _ _ _ (by simp [sampleH, Func.lines]) ⟨by decide, by decide⟩ (by simp [sampleH, Func.inlinees]))))
  exact ⟨st, sym, fileId, h1, h2, h⟩

/-- C67 applied without inline information. -/
example : ∃ text file, (symObj false).display none = .ok text ∧ readSymFile text = some file ∧
    file.framesAt 0x1006 = some [⟨str% "f()", some (str% "git:x.c"), 10⟩] :=
  C67_symbolicate_flat sampleCEnv sampleMem sampleU sampleV .linux symInput sampleFs symInput_ok (str% "/lib/f.so") none none
    (symObj false) rfl none (symObj_readable false) 0x1000 sampleF [.mk 0x1000 4 (nm (str% "f2")) sampleComp [] []]
    rfl (by decide) (by decide) (by decide) (str% "f()") ((shown_demangle _ _ _).mpr rfl) (.inl (by decide))
    _ _ ((printed_iff _ _ _).mpr ⟨rfl, rfl⟩) 0x1006 (by decide) (by decide)
    (by intro b h1 h2; have : b = 0x1001 ∨ b = 0x1002 ∨ b = 0x1003 ∨ b = 0x1004 ∨ b = 0x1005 ∨ b = 0x1006 := by omega
        rcases this with rfl | rfl | rfl | rfl | rfl | rfl <;> rfl)
    [] ⟨0x1000, some 0x10, sampleFile1, 10⟩ [⟨0x1010, some 0x10, sampleFile2, 11⟩] rfl (by decide) (by decide) (by simp)

/-- C96 applied: three copies of a dump. -/
example : ∃ text file textK fileK, (symObj true).display none = .ok text ∧ readSymFile text = some file ∧
    ((symObj true).times 3).display none = .ok textK ∧ readSymFile textK = some fileK ∧ fileK.framesAt 0x1006 = file.framesAt 0x1006 := by
  obtain ⟨t, f, u, g, h1, h2, h3, h4, _, _, _, _, _, _, _, h⟩ := C96_printed (symObj true)
    ⟨_, _, _, _, _, _, _, _, true, str% "/lib/f.so", none, none, symInput_ok, rfl, rfl⟩ 3 (by decide) none (symObj_readable true)
  exact ⟨t, f, u, g, h1, h2, h3, h4, h _⟩

namespace Offline
open Dumper

/-- C88 applied: the build without HTTP dumps the PE alone. -/
example : readSingle exEnv exConfig (str% "/d/" ++ str% "m.exe") peAndPdb =
    Dumper.fromObject exEnv (exObj .pe (str% "A1") (str% "x86") none) (str% "x/m.pdb") none (some (str% "m.exe")) .win none false :=
  C88_pe exEnv exConfig peAndPdb (.inr rfl) (by unfold ProperComp; decide)
    (by
      intro q es h
      unfold peAndPdb WinUtils.diskOf at h
      simp only [List.lookup] at h
      split at h
      · cases h
      · split at h <;> cases h)
    (b := [3]) ⟨_, str% "/d/", str% "m.exe", [3], .file [3] rfl, rfl, .inr rfl, by unfold ProperComp; decide, .plain rfl⟩ rfl rfl
    (⟨by decide, str% "C:\\", rfl, .inr rfl⟩) (mapping := none) (arch := str% "x86_64") rfl rfl
end Offline

namespace Dumper
/-- C93 applied: the run again. -/
example (m : ObjectInfo) (r : Res Unit) (w1 : Cache.World) (out1 : Output.World)
    (h : (readSingle (againEnv 1000) againConfig (str% "/d/a.dll") (exWorld [(str% "/d/a.dll", .file [3] true)])).1 = .ok m)
    (h1 : singleFile (againEnv 1000) none againConfig (str% "/d/a.dll") (exWorld [(str% "/d/a.dll", .file [3] true)]) Output.emptyWorld = (r, w1, out1)) :
    (readSingle (againEnv 1000) againConfig (str% "/d/a.dll") w1).1 = .ok m :=
  (C93_again (againEnv 1000) none againConfig (str% "/d/a.dll") _ Output.emptyWorld m again_arrivals again_room (by intro id h; cases h) again_pe h h1).1

/-- C100 applied: a Linux library on a Mac and on Windows. -/
example (real : Str → Option Str) : fromObject ((exEnv.on .macos real).on .windows real) hostElf (str% "a") none none .linux none true =
    fromObject (exEnv.on .macos real) hostElf (str% "a") none none .linux none true :=
  C100_object (exEnv.on .macos real) (alike_foreign _ _ _ (fun h => by cases h) (fun h => by cases h)) _ _ _ _ _
end Dumper

namespace Threads
/-- C90 applied: a worker panics because an input makes it panic. -/
example : Fatal (okEnv 1 2 fun _ => .panic) :=
  C90_threads _ (okEnv_ok _ _ _) (final (okEnv 1 2 fun _ => .panic) ([.send, .send] ++ steps 0 2 ++ [.join]))
    (final_reachable (by decide +kernel)) (.inr (.inr (by decide +kernel)))

/-- C95 applied: the good run reports nothing because it is complete, and the bad one has something to report. -/
example : Log.errors (final (okEnv 2 3 two) goodRun) = 0 ↔ (final (okEnv 2 3 two) goodRun).Complete (okEnv 2 3 two) :=
  C95_reported _ (okEnv_ok _ _ _) (by decide) _ (final_reachable (by decide +kernel)) (by decide +kernel)
example : Log.errors (final (okEnv 1 2 bad) ([.send, .send] ++ steps 0 2 ++ [.join])) = 0 ↔
    (final (okEnv 1 2 bad) ([.send, .send] ++ steps 0 2 ++ [.join])).Complete (okEnv 1 2 bad) :=
  C95_reported _ (okEnv_ok _ _ _) (by decide) _ (final_reachable (by decide +kernel)) (by decide +kernel)
example : Log.errors (final (okEnv 2 3 two) goodRun) = 0 ∧ Log.errors (final (okEnv 1 2 bad) ([.send, .send] ++ steps 0 2 ++ [.join])) ≠ 0 := by
  decide +kernel
end Threads

namespace WinHost
/-- C104 applied: two ids, two places; and a name that replaces the directory. -/
example : WinPath.push (str% "C:\\store") (getPathForSym (str% "m.pdb") (str% "A1")) ≠
    WinPath.push (str% "C:\\store") (getPathForSym (str% "m.pdb") (str% "A2")) := by
  have hp : ∀ c : Str, c ≠ [] → ('/' ∉ c ∧ '\\' ∉ c) → c ≠ ['.'] → c ≠ ['.', '.'] → c[1]? ≠ some ':' → WinProper c :=
    fun c h1 h2 h3 h4 h5 => ⟨h1, h2, h3, h4, fun ⟨d, r, e, _⟩ => h5 (by rw [e]; rfl)⟩
  intro h
  have := (C104_distinct (hp _ (by decide) (by decide) (by decide) (by decide) (by decide)) (hp _ (by decide) (by decide) (by decide) (by decide) (by decide))
    (hp _ (by decide) (by decide) (by decide) (by decide) (by decide)) (hp _ (by decide) (by decide) (by decide) (by decide) (by decide)) h).1
  revert this
  decide
example : ∃ f, StoreFileName (str% "a:b") f ∧ WinPath.push (str% "C:\\store") (getPathForSym (str% "a:b") (str% "A1")) = f :=
  C104_drive _ _ _ ⟨'a', str% "b", rfl, rfl⟩
end WinHost

end DumpSyms
