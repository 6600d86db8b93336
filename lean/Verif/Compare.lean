import Verif.Model.Dumper
/-!
# Running the model on decoded files

Used by /verif/compare/windows.py, which decodes the Windows test data of /repo: reads what was decoded, runs `ObjectInfo::from_object` and
the printer of the model on it, and writes down the symbol file.  Nothing is proved here.
-/
namespace DumpSyms
namespace Compare

/-- No file is canonicalized (as when the program runs on another system) or mapped; no name is demangled. -/
def env : CEnv where
  src := { platform := .win, canonicalize := false, canon := fun _ => none, mapping := fun _ => none }
  dm := fun _ => none
  detect := fun s => if s.take 1 = ['?'] then .other 1 else .unknown
  us := fun l => isort (fun r r' => decide (r.start ≤ r'.start)) l

/-- What has been read so far. -/
structure Input where
  functions : Array Func := #[]
  publics : Array Collector.Public := #[]
  exceptions : Array Collector.ExcEntry := #[]
  files : Array (String × FileInfo) := #[]
  /-- The function whose lines are being read: address, size, name. -/
  current : Option (Nat × Nat × String) := none
  lines : Array LineInfo := #[]

/-- The function is complete. -/
def Input.flush (a : Input) : Input :=
  match a.current with
  | none => a
  | some (x, n, s) =>
    { a with functions := a.functions.push (.mk x n ⟨s.toList, false, .other 1⟩ ⟨(1, 0), []⟩ a.lines.toList []), current := none, lines := #[] }

/-- A path in a string table: directory and name as `FileInfo::from_path` of `symbolic` splits it.  Each path has its own place in memory. -/
def Input.file (a : Input) (s : String) : Input × FileInfo :=
  match a.files.find? (·.1 = s) with
  | some (_, f) => (a, f)
  | none =>
    let ps := s.splitOn "\\"
    let d := "\\".intercalate ps.dropLast
    let n := ps.getLast!
    let k := a.files.size + 1
    let f : FileInfo := { dirRef := (1000000 * k, d.length), dir := d.toList, nameRef := (1000000 * k + d.length + 1, n.length), name := n.toList }
    ({ a with files := a.files.push (s, f) }, f)

/-- One line: `F` a function, `L` a line record of it, `P` a public symbol, `E` an entry of the exception table. -/
def Input.read (a : Input) (l : String) : Input :=
  match l.splitOn "\t" with
  | ["F", x, n, s] => { a.flush with current := some (x.toNat!, n.toNat!, s) }
  | ["L", x, n, k, f] =>
    let (a, fi) := a.file f
    { a with lines := a.lines.push ⟨x.toNat!, some n.toNat!, fi, k.toNat!⟩ }
  | ["P", x, s] => { a with publics := a.publics.push ⟨some s.toList, x.toNat!, 0⟩ }
  | ["E", b, e] => { a with exceptions := a.exceptions.push ⟨b.toNat!, e.toNat!⟩ }
  | _ => a

/-- Arguments: file, `pe` or `pdb`, debug id, architecture, code id, name of the module, name of the PE file.  The symbol file is written beside
the file that is read. -/
def run : List String → IO Unit
  | [path, kind, debugId, arch, codeId, module, peName] => do
    let a := (((← IO.FS.readFile path).splitOn "\n").foldl Input.read {}).flush
    let pe : ObjInput := {
      format := .pe, debugId := debugId.toList, codeId := some codeId.toList, arch := arch.toList, hasDebugInfo := false, name := none
      functions := .ok [], exceptions := some a.exceptions.toList, publics := a.publics.toList, unwind := none, kind := .pe }
    let pdb : ObjInput := {
      pe with format := .pdb, codeId := none, hasDebugInfo := true, functions := .ok (a.functions.toList.map some), exceptions := none, kind := .pdb }
    let r := if kind = "pe" then ObjectInfo.fromObject env false .win pe (Dumper.winPathFileName module.toList) none (some peName.toList)
      else ObjectInfo.fromObject env false .win pdb module.toList (some pe) (some peName.toList)
    match r >>= ObjectInfo.display none with
    | .ok s => IO.FS.writeFile (path ++ ".out") (String.ofList s)
    | .err _ => IO.println "error"
    | .panic => IO.println "panic"
  | _ => IO.println "bad arguments"

end Compare
end DumpSyms
