import Verif.Proof.Output
import Verif.Props.Display
/-!
# C28, C29, C30: writing symbol files
-/
namespace DumpSyms
namespace Output

/-- The destinations asked for: the output file (or stream), and the file in the store unless its directory is empty. -/
inductive Requested (out : Out) (o : ObjectInfo) : FileOutput → Prop where
  | file {fo : FileOutput} (h : out = .file fo ∨ ∃ d, out = .fileAndStore fo d) : Requested out o fo
  | store {dir p : Str} (h : out = .store dir ∨ ∃ fo, out = .fileAndStore fo dir) (hd : dir ≠ [])
      (hp : InStore dir o.fileName o.debugId p) : Requested out o (.path p)

/-- What a destination holds after `bytes` has been written to it, `w` being the state before. -/
def Holds (w w' : World) (fo : FileOutput) (bytes : Bytes) : Prop :=
  match fo with
  | .path p => w'.files p = some bytes
  | .stdout => w'.stdout = w.stdout ++ bytes
  | .stderr => w'.stderr = w.stderr ++ bytes

theorem push_nil (d : Str) : Path.push [] d = d := by
  unfold Path.push
  split <;> simp

theorem symStorePath_some {o : ObjectInfo} {dir p : Str} (h : symStorePath o dir = some p) :
    dir ≠ [] ∧ p = Path.push dir (Utils.getPathForSym o.fileName o.debugId) := by
  unfold symStorePath at h
  split at h
  · cases h
  · rename_i hd; cases h; exact ⟨hd, by rw [push_nil]⟩

theorem symStorePath_of_ne {o : ObjectInfo} {dir : Str} (h : dir ≠ []) :
    symStorePath o dir = some (Path.push dir (Utils.getPathForSym o.fileName o.debugId)) := by
  unfold symStorePath
  rw [if_neg h, push_nil]

theorem requested_iff {out : Out} {o : ObjectInfo} (hn : '/' ∉ o.fileName) {fo : FileOutput} :
    Requested out o fo ↔ (destinations out o).1 = some fo ∨ ∃ p, (destinations out o).2 = some p ∧ fo = .path p := by
  constructor
  · intro h
    cases h with
    | file h =>
      rcases h with rfl | ⟨d, rfl⟩
      · exact .inl rfl
      · exact .inl rfl
    | store h hd hp =>
      rw [inStore_iff hn] at hp
      subst hp
      rcases h with rfl | ⟨d, rfl⟩
      · exact .inr ⟨_, symStorePath_of_ne hd, rfl⟩
      · exact .inr ⟨_, symStorePath_of_ne hd, rfl⟩
  · intro h
    cases out with
    | file f =>
      rcases h with h | ⟨p, h, _⟩
      · cases h; exact .file (.inl rfl)
      · cases h
    | store dir =>
      rcases h with h | ⟨p, h, rfl⟩
      · cases h
      · obtain ⟨hd, rfl⟩ := symStorePath_some h
        exact .store (.inl rfl) hd ((inStore_iff hn).mpr rfl)
    | fileAndStore f dir =>
      rcases h with h | ⟨p, h, rfl⟩
      · cases h; exact .file (.inr ⟨_, rfl⟩)
      · obtain ⟨hd, rfl⟩ := symStorePath_some h
        exact .store (.inr ⟨_, rfl⟩) hd ((inStore_iff hn).mpr rfl)

/-- **C28**, first half: with check-cfi on and no unwind data nothing is created or written, and an error is reported. -/
theorem C28_no_cfi (io : IoEnv) (extra : Option (List Str)) (out : Out) (o : ObjectInfo) (w : World) (h : o.stack = []) :
    store io extra out true o w = (.err (str% "No CFI data"), w) := by
  simp [store, ObjectInfo.hasStack, h]

theorem writeTo_fits {io : IoEnv} {t : Str} {fo : FileOutput} (w : World) (hc : ∀ p, fo = .path p → io.create p = true)
    (hch : (io.chunks t).flatten = Utf8.encode t) (hr : (Utf8.encode t).length ≤ io.room fo) :
    writeTo io (.ok t) fo w = (.ok (), w.receive fo (Utf8.encode t)) := by
  unfold writeTo
  rw [if_pos (by cases fo with
    | path p => exact hc p rfl
    | stdout => rfl
    | stderr => rfl)]
  simp only [dump_fits (cap := io.capacity) (hch ▸ hr), hch, if_true]

theorem holds_receive (w0 w : World) (fo : FileOutput) (b : Bytes) (h1 : w.stdout = w0.stdout) (h2 : w.stderr = w0.stderr) :
    Holds w0 (w.receive fo b) fo b := by
  cases fo with
  | path p => simp [Holds, World.receive]
  | stdout => simp [Holds, World.receive, h1]
  | stderr => simp [Holds, World.receive, h2]

/-- **C28**, second half: otherwise, when nothing goes wrong (directories and files can be created, the destinations have
room), success is reported and every requested destination holds the complete text. -/
theorem C28_complete (io : IoEnv) (extra : Option (List Str)) (out : Out) (checkCfi : Bool) (o : ObjectInfo) (w : World)
    {t : Str} (hn : '/' ∉ o.fileName) (hcfi : checkCfi = true → o.stack ≠ []) (ht : o.display extra = .ok t)
    (hch : (io.chunks t).flatten = Utf8.encode t) (hm : ∀ d, io.mkdirs d = true)
    (hc : ∀ p, Requested out o (.path p) → io.create p = true)
    (hr : ∀ fo, Requested out o fo → (Utf8.encode t).length ≤ io.room fo) :
    ∃ w', store io extra out checkCfi o w = (.ok (), w') ∧
      ∀ fo, Requested out o fo → Holds w w' fo (Utf8.encode t) := by
  unfold store
  rw [if_neg (by
    intro h
    simp only [ObjectInfo.hasStack, Bool.not_not, Bool.and_eq_true, List.isEmpty_iff] at h
    exact hcfi h.1 h.2)]
  simp only [ht]
  have hstore : ∀ p, (destinations out o).2 = some p → ∃ d, writeStore io (.ok t) p w =
      (.ok (), ({ w with dirs := d :: w.dirs } : World).receive (.path p) (Utf8.encode t)) := by
    intro p hp
    have hreq : Requested out o (.path p) := (requested_iff hn).mpr (.inr ⟨p, hp, rfl⟩)
    obtain ⟨d, hd⟩ : ∃ d, Path.parent p = some d := by
      cases out with
      | file f => cases hp
      | store dir => exact symStorePath_parent hp
      | fileAndStore f dir => exact symStorePath_parent hp
    refine ⟨d, ?_⟩
    unfold writeStore
    rw [hd]
    simp only [hm d, if_true]
    exact writeTo_fits _ (by rintro q hq; cases hq; exact hc p hreq) hch (hr _ hreq)
  cases h2 : (destinations out o).2 with
  | none =>
    simp only
    cases h1 : (destinations out o).1 with
    | none =>
      refine ⟨w, rfl, fun fo hf => ?_⟩
      rcases (requested_iff hn).mp hf with h | ⟨p, h, _⟩
      · rw [h1] at h; cases h
      · rw [h2] at h; cases h
    | some fo =>
      have hreq : Requested out o fo := (requested_iff hn).mpr (.inl h1)
      refine ⟨_, writeTo_fits w (fun p hp => hc p (hp ▸ hreq)) hch (hr _ hreq), fun fo' hf => ?_⟩
      rcases (requested_iff hn).mp hf with h | ⟨p, h, _⟩
      · rw [h1] at h; cases h
        exact holds_receive w w fo _ rfl rfl
      · rw [h2] at h; cases h
  | some p =>
    obtain ⟨d, hs⟩ := hstore p h2
    simp only [hs]
    cases h1 : (destinations out o).1 with
    | none =>
      refine ⟨_, rfl, fun fo hf => ?_⟩
      rcases (requested_iff hn).mp hf with h | ⟨q, h, rfl⟩
      · rw [h1] at h; cases h
      · rw [h2] at h; cases h
        simp [Holds, World.receive]
    | some fo =>
      have hreq : Requested out o fo := (requested_iff hn).mpr (.inl h1)
      refine ⟨_, writeTo_fits _ (fun p hp => hc p (hp ▸ hreq)) hch (hr _ hreq), fun fo' hf => ?_⟩
      rcases (requested_iff hn).mp hf with h | ⟨q, h, rfl⟩
      · rw [h1] at h; cases h
        exact holds_receive w _ fo _ rfl rfl
      · rw [h2] at h; cases h
        cases fo with
        | path q =>
          simp only [Holds, World.receive]
          split <;> simp
        | stdout => simp [Holds, World.receive]
        | stderr => simp [Holds, World.receive]

/-- What `writeTo` does in all cases: only the destination changes, and it receives a beginning of the text. -/
theorem writeTo_spec {io : IoEnv} {t : Str} (fo : FileOutput) (w : World) (hch : (io.chunks t).flatten = Utf8.encode t) :
    ((writeTo io (.ok t) fo w).1 = .panic ∧ (writeTo io (.ok t) fo w).2 = w ∧ ∃ p, fo = .path p ∧ io.create p = false) ∨
    ((writeTo io (.ok t) fo w).2 = w.receive fo ((Utf8.encode t).take (io.room fo)) ∧
      ((writeTo io (.ok t) fo w).1 = .ok () → (Utf8.encode t).length ≤ io.room fo + io.capacity) ∧
      ((writeTo io (.ok t) fo w).1 ≠ .ok () → (writeTo io (.ok t) fo w).1 = .err (str% "write") ∧
        io.room fo < (Utf8.encode t).length)) := by
  unfold writeTo
  obtain ⟨h1, h2, h3⟩ := dump_spec (io.room fo) io.capacity (io.chunks t)
  rw [hch] at h1 h2 h3
  split
  · refine .inr ⟨?_, ?_, ?_⟩
    · simp only [h1]
    · intro h
      simp only at h
      cases hb : (dump (io.room fo) io.capacity (io.chunks t)).1 with
      | true => exact h3 hb
      | false => rw [hb] at h; cases h
    · intro h
      simp only at h ⊢
      cases hb : (dump (io.room fo) io.capacity (io.chunks t)).1 with
      | true => rw [hb] at h; exact absurd rfl h
      | false => exact ⟨rfl, h2 hb⟩
  · rename_i hc
    refine .inl ⟨rfl, rfl, ?_⟩
    cases fo with
    | path p => exact ⟨p, rfl, by simpa [opens] using hc⟩
    | stdout => exact absurd rfl hc
    | stderr => exact absurd rfl hc

/-- **C29**: whatever goes wrong, no file other than the requested ones changes. -/
theorem C29_others_unchanged (io : IoEnv) (extra : Option (List Str)) (out : Out) (checkCfi : Bool) (o : ObjectInfo)
    (w : World) (hn : '/' ∉ o.fileName) (p : Str) (hp : ¬ Requested out o (.path p)) : (store io extra out checkCfi o w).2.files p = w.files p := by
  have hto : ∀ (text : Res Str) (fo : FileOutput) (w' : World), Requested out o fo →
      (writeTo io text fo w').2.files p = w'.files p := by
    intro text fo w' hf
    have hrec : ∀ b, (w'.receive fo b).files p = w'.files p := by
      intro b
      cases fo with
      | path q =>
        simp only [World.receive]
        rw [if_neg]
        rintro rfl
        exact hp hf
      | stdout => rfl
      | stderr => rfl
    unfold writeTo
    split
    · split
      · exact hrec _
      · exact hrec _
      · exact hrec _
    · rfl
  have hst : ∀ (text : Res Str) (q : Str), (destinations out o).2 = some q →
      (writeStore io text q w).2.files p = w.files p := by
    intro text q hq
    unfold writeStore
    split
    · rfl
    · split
      · exact hto _ _ _ ((requested_iff hn).mpr (.inr ⟨q, hq, rfl⟩))
      · rfl
  unfold store
  split
  · rfl
  · simp only
    cases h2 : (destinations out o).2 with
    | none =>
      simp only
      cases h1 : (destinations out o).1 with
      | none => rfl
      | some fo => exact hto _ _ _ ((requested_iff hn).mpr (.inl h1))
    | some q =>
      simp only
      have hq := hst (o.display extra) q h2
      split
      · cases h1 : (destinations out o).1 with
        | none => exact hq
        | some fo => exact (hto _ _ _ ((requested_iff hn).mpr (.inl h1))).trans hq
      · exact hq

/-- **C29**: the output file and the store file hold the same bytes. -/
theorem C29_same_bytes (io : IoEnv) (extra : Option (List Str)) (file dir : Str) (checkCfi : Bool) (o : ObjectInfo)
    (w : World) {t : Str} (hn : '/' ∉ o.fileName) (hd : dir ≠ []) (hcfi : checkCfi = true → o.stack ≠ []) (ht : o.display extra = .ok t)
    (hch : (io.chunks t).flatten = Utf8.encode t) (hm : ∀ d, io.mkdirs d = true) (hc : ∀ p, io.create p = true)
    (hr : ∀ fo, (Utf8.encode t).length ≤ io.room fo) :
    ∃ w' p, store io extra (.fileAndStore (.path file) dir) checkCfi o w = (.ok (), w') ∧
      w'.files file = some (Utf8.encode t) ∧ InStore dir o.fileName o.debugId p ∧ w'.files p = w'.files file := by
  obtain ⟨w', h1, h2⟩ := C28_complete io extra (.fileAndStore (.path file) dir) checkCfi o w hn hcfi ht hch hm
    (fun p _ => hc p) (fun fo _ => hr fo)
  have ha := h2 (.path file) (.file (.inr ⟨_, rfl⟩))
  have hp := (inStore_iff (dir := dir) (id := o.debugId) hn).mpr rfl
  have hb := h2 _ (.store (.inr ⟨_, rfl⟩) hd hp)
  exact ⟨w', _, h1, ha, hp, by rw [show w'.files _ = some _ from ha]; exact hb⟩

/-- A reported success means that each requested destination holds the beginning of the text, and that at most one buffer
(8192 bytes) of it is missing.  Missing for C30: the end of the text is written when the buffer is dropped, and a failure
there is ignored (see the witness). -/
theorem C30_success_partial (io : IoEnv) (extra : Option (List Str)) (out : Out) (checkCfi : Bool) (o : ObjectInfo)
    (w : World) {t : Str} (ht : o.display extra = .ok t) (hch : (io.chunks t).flatten = Utf8.encode t)
    (hn : '/' ∉ o.fileName) (hne : ∀ p d, out = .fileAndStore (.path p) d → ¬ InStore d o.fileName o.debugId p)
    (h : (store io extra out checkCfi o w).1 = .ok ()) {fo : FileOutput} (hf : Requested out o fo) :
    Holds w (store io extra out checkCfi o w).2 fo ((Utf8.encode t).take (io.room fo)) ∧
      (Utf8.encode t).length ≤ io.room fo + io.capacity := by
  unfold store at h ⊢
  split at h
  · cases h
  · rename_i hcfi
    rw [if_neg hcfi]
    simp only [ht] at h ⊢
    -- a successful write
    have hok : ∀ (fo : FileOutput) (w' : World), (writeTo io (.ok t) fo w').1 = .ok () →
        (writeTo io (.ok t) fo w').2 = w'.receive fo ((Utf8.encode t).take (io.room fo)) ∧
        (Utf8.encode t).length ≤ io.room fo + io.capacity := by
      intro fo w' h
      rcases writeTo_spec fo w' hch with ⟨h1, _⟩ | ⟨h1, h2, _⟩
      · rw [h1] at h; cases h
      · exact ⟨h1, h2 h⟩
    cases h2 : (destinations out o).2 with
    | none =>
      simp only [h2] at h ⊢
      rcases (requested_iff hn).mp hf with h1 | ⟨p, h', _⟩
      · simp only [h1] at h ⊢
        obtain ⟨e, hl⟩ := hok fo w h
        rw [e]
        exact ⟨holds_receive w w fo _ rfl rfl, hl⟩
      · rw [h2] at h'; cases h'
    | some p =>
      simp only [h2] at h ⊢
      cases hs : (writeStore io (.ok t) p w).1 with
      | err _ => simp only [hs] at h; cases h
      | panic => simp only [hs] at h; cases h
      | ok u =>
        simp only [hs] at h ⊢
        obtain ⟨d, hw, hl⟩ : ∃ d, (writeStore io (.ok t) p w).2 = ({ w with dirs := d :: w.dirs } : World).receive (.path p)
            ((Utf8.encode t).take (io.room (.path p))) ∧ (Utf8.encode t).length ≤ io.room (.path p) + io.capacity := by
          unfold writeStore at hs ⊢
          split at hs
          · cases hs
          · rename_i d hd
            split at hs
            · rename_i hm
              rw [if_pos hm]
              obtain ⟨e, hl⟩ := hok (.path p) { w with dirs := d :: w.dirs } hs
              exact ⟨d, e, hl⟩
            · cases hs
        rw [hw] at h ⊢
        cases h1 : (destinations out o).1 with
        | none =>
          simp only [h1] at h ⊢
          rcases (requested_iff hn).mp hf with h' | ⟨q, h', rfl⟩
          · rw [h1] at h'; cases h'
          · rw [h2] at h'; cases h'
            exact ⟨by simp [Holds, World.receive], hl⟩
        | some f =>
          simp only [h1] at h ⊢
          obtain ⟨e, hl'⟩ := hok f _ h
          rw [e]
          rcases (requested_iff hn).mp hf with h' | ⟨q, h', rfl⟩
          · rw [h1] at h'; cases h'
            exact ⟨holds_receive w _ _ _ rfl rfl, hl'⟩
          · rw [h2] at h'; cases h'
            refine ⟨?_, hl⟩
            cases f with
            | path q =>
              simp only [Holds, World.receive]
              rw [if_neg]
              · simp
              · rintro rfl
                cases out with
                | file f => cases h2
                | store dir => cases h1
                | fileAndStore f dir =>
                  cases h1
                  exact hne _ _ rfl ((inStore_iff hn).mpr (symStorePath_some h2).2)
            | stdout => simp [Holds, World.receive]
            | stderr => simp [Holds, World.receive]

/-- So a destination that lacks room for all but a buffer of the text makes the run fail. -/
theorem C30_reported (io : IoEnv) (extra : Option (List Str)) (out : Out) (checkCfi : Bool) (o : ObjectInfo)
    (w : World) {t : Str} (ht : o.display extra = .ok t) (hch : (io.chunks t).flatten = Utf8.encode t)
    (hn : '/' ∉ o.fileName) (hne : ∀ p d, out = .fileAndStore (.path p) d → ¬ InStore d o.fileName o.debugId p)
    {fo : FileOutput} (hf : Requested out o fo) (hr : io.room fo + io.capacity < (Utf8.encode t).length) :
    (store io extra out checkCfi o w).1 ≠ .ok () := by
  intro h
  have := (C30_success_partial io extra out checkCfi o w ht hch hn hne h hf).2
  omega

/-- A full disk: everything can be created, nothing can be written. -/
def fullDisk : IoEnv where
  mkdirs := fun _ => true
  create := fun _ => true
  room := fun _ => 0
  capacity := 8192
  chunks := fun t => [Utf8.encode t]

/-- A disk with room. -/
def goodDisk : IoEnv := { fullDisk with room := fun _ => 1000000 }

def emptyWorld : World := { files := fun _ => none, dirs := [], stdout := [], stderr := [] }

/-- **C30 is false**: on a full disk, the dump of a real object reports success and leaves an empty file. -/
theorem C30_empty_file_witness : ∃ (o : ObjectInfo) (t : Str), DumpedUnder sampleEnv.mapping o ∧ o.display none = .ok t ∧
    t ≠ [] ∧ (store fullDisk none (.file (.path (str% "a.sym"))) false o emptyWorld).1 = .ok () ∧
    (store fullDisk none (.file (.path (str% "a.sym"))) false o emptyWorld).2.files (str% "a.sym") = some [] :=
  ⟨theObj (dumpOf nlObj), _, dumpOf_dumped (m := nlObj) (fs := [.mk 0x1000 4 (nm (str% "a\nPUBLIC 9 0 b")) sampleComp [] []]) rfl (by
    simp only [List.mem_cons, List.not_mem_nil, or_false, forall_eq]
    exact sampleNode _ _ _ _ _ (by decide) (by simp)) (by intro es h; cases h) rfl, rfl, by decide, by decide +kernel,
    by decide +kernel⟩

/-- An empty store directory asks for nothing: success is reported and nothing is written. -/
theorem C28_empty_store_witness (io : IoEnv) (extra : Option (List Str)) (o : ObjectInfo) (w : World) :
    store io extra (Out.ofOptions none (some [])) false o w = (.ok (), w) := rfl

/-- File and store, on a good disk. -/
example : (store goodDisk none (.fileAndStore (.path (str% "a.sym")) (str% "s")) true printSample emptyWorld).1 = .ok () ∧
    (store goodDisk none (.fileAndStore (.path (str% "a.sym")) (str% "s")) true printSample emptyWorld).2.files
      (str% "s/lib.so/1DE0/lib.so.sym") =
    (match printSample.display none with | .ok t => some (Utf8.encode t) | _ => none) := by decide +kernel
/-- No unwind data. -/
example : (store goodDisk none (.file .stdout) true { printSample with stack := [] } emptyWorld).1 = .err (str% "No CFI data") := by
  decide +kernel
/-- The hypotheses of `C28_complete` hold for the sample. -/
example : (Utf8.encode (match printSample.display none with | .ok t => t | _ => [])).length ≤ goodDisk.room .stdout ∧
    printSample.stack ≠ [] ∧ '/' ∉ printSample.fileName := by decide +kernel

end Output
end DumpSyms
