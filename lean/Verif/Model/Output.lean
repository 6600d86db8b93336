import Verif.Base.Utf8
import Verif.Model.ObjectInfo
import Verif.Model.Utils
/-!
# Model of the output side of src/dumper.rs

The file system is a map from path strings to contents (simplification: two different strings are two different files, and
directories are only recorded).  A destination takes some number of bytes and then fails (`room`).  `BufWriter` is modelled
after the standard library (`write_all`, `flush_buf`, `drop`), with its capacity as a parameter.  Simplifications: standard
output and standard error are destinations like files (their own line buffering is not modelled); the printed text is
computed before it is written, so a panic while printing would leave an empty file here and a partial one in the code
(printing does not panic: `C04_merged_display`).
-/
namespace DumpSyms
namespace Output

abbrev Bytes := List Nat

/-- src/dumper.rs:29-34 `enum FileOutput`. -/
inductive FileOutput where
  | path (p : Str)
  | stdout
  | stderr
  deriving DecidableEq, Repr

/-- src/dumper.rs:36-44 `impl From<&str> for FileOutput`. -/
def FileOutput.ofStr (s : Str) : FileOutput := if s = ['-'] then .stdout else .path s

/-- src/dumper.rs:58-69 `enum Output`. -/
inductive Out where
  | file (fo : FileOutput)
  | store (dir : Str)
  | fileAndStore (fo : FileOutput) (dir : Str)
  deriving DecidableEq, Repr

/-- src/main.rs:216-224: the output of the command-line options `--output` and `--store`. -/
def Out.ofOptions : Option Str → Option Str → Out
  | some f, some dir => .fileAndStore (FileOutput.ofStr f) dir
  | some f, none => .file (FileOutput.ofStr f)
  | none, some dir => .store dir
  | none, none => .file .stdout

/-- The contents of everything that can be written. -/
structure World where
  files : Str → Option Bytes
  dirs : List Str
  stdout : Bytes
  stderr : Bytes

/-- How the surroundings behave: `mkdirs` is `fs::create_dir_all` (does it succeed), `create` is `File::create` (does it
succeed), `room` is the number of bytes a destination takes before its writes fail, `capacity` is the capacity of a
`BufWriter` (8192), and `chunks` is how `write!` splits the text into `write_str` calls. -/
structure IoEnv where
  mkdirs : Str → Bool
  create : Str → Bool
  room : FileOutput → Nat
  capacity : Nat
  chunks : Str → List Bytes

/-- A `BufWriter`: what the destination has received and what is still in the buffer. -/
structure BufWriter where
  out : Bytes
  buf : Bytes
  deriving DecidableEq, Repr

/-- `inner.write_all(bytes)`: the destination receives what it has room for. -/
def innerWrite (room : Nat) (w : BufWriter) (bytes : Bytes) : Bool × BufWriter :=
  (decide (w.out.length + bytes.length ≤ room), { w with out := w.out ++ bytes.take (room - w.out.length) })

/-- `BufWriter::flush_buf`: what could be written leaves the buffer. -/
def flushBuf (room : Nat) (w : BufWriter) : Bool × BufWriter :=
  let r := innerWrite room w w.buf
  (r.1, { r.2 with buf := w.buf.drop (room - w.out.length) })

/-- `BufWriter::write_all`. -/
def writeAll (room cap : Nat) (w : BufWriter) (bytes : Bytes) : Bool × BufWriter :=
  let spare := cap - w.buf.length
  if bytes.length < spare then (true, { w with buf := w.buf ++ bytes })
  else
    let r := if bytes.length > spare then flushBuf room w else (true, w)
    if !r.1 then r
    else if bytes.length ≥ cap then innerWrite room r.2 bytes
    else (true, { r.2 with buf := r.2.buf ++ bytes })

/-- The calls made by `write!`: they stop at the first failure. -/
def writeChunks (room cap : Nat) : BufWriter → List Bytes → Bool × BufWriter
  | w, [] => (true, w)
  | w, c :: cs =>
    let r := writeAll room cap w c
    if r.1 then writeChunks room cap r.2 cs else r

/-- src/object_info.rs:294-297 `ObjectInfo::dump` of a text cut into chunks, with the writer dropped at the end (src/dumper.rs:234,241;
`BufWriter::drop` flushes and ignores the outcome).  Gives the reported outcome and what the destination received. -/
def dump (room cap : Nat) (chunks : List Bytes) : Bool × Bytes :=
  let r := writeChunks room cap { out := [], buf := [] } chunks
  (r.1, (flushBuf room r.2).2.out)

/-- What a destination holds after receiving `bytes` (a file has just been emptied by `File::create`). -/
def World.receive (w : World) (fo : FileOutput) (bytes : Bytes) : World :=
  match fo with
  | .path p => { w with files := fun q => if q = p then some bytes else w.files q }
  | .stdout => { w with stdout := w.stdout ++ bytes }
  | .stderr => { w with stderr := w.stderr ++ bytes }

/-- src/dumper.rs:188-201 `get_writer_for_sym`: whether the writer can be opened (`File::create(path).expect(…)` panics
otherwise). -/
def opens (io : IoEnv) : FileOutput → Bool
  | .path p => io.create p
  | .stdout => true
  | .stderr => true

/-- src/dumper.rs:188-201 `get_writer_for_sym` followed by `object_info.dump(writer)?` (lines 233-234, 240-241). -/
def writeTo (io : IoEnv) (text : Res Str) (fo : FileOutput) (w : World) : Res Unit × World :=
  if opens io fo then
    match text with
    | .ok t =>
      let r := dump (io.room fo) io.capacity (io.chunks t)
      (if r.1 then .ok () else .err (str% "write"), w.receive fo r.2)
    | .err m => (.err m, w.receive fo [])
    | .panic => (.panic, w.receive fo [])
  else (.panic, w)

/-- src/dumper.rs:206-218: the path in the store (`none` for an empty directory). -/
def symStorePath (o : ObjectInfo) (dir : Str) : Option Str :=
  if dir = [] then none
  else some (Path.push (Path.push [] dir) (Utils.getPathForSym o.fileName o.debugId))

/-- src/dumper.rs:220-227: the destinations. -/
def destinations (out : Out) (o : ObjectInfo) : Option FileOutput × Option Str :=
  match out with
  | .file fo => (some fo, none)
  | .store dir => (none, symStorePath o dir)
  | .fileAndStore fo dir => (some fo, symStorePath o dir)

/-- src/dumper.rs:229-237: writing in the store. -/
def writeStore (io : IoEnv) (text : Res Str) (p : Str) (w : World) : Res Unit × World :=
  match Path.parent p with
  | none => (.panic, w)
  | some d =>
    if io.mkdirs d then writeTo io text (.path p) { w with dirs := d :: w.dirs }
    else (.err (str% "create_dir_all"), w)

/-- src/dumper.rs:203-246 `store`.  `extra` is `EXTRA_INFO`. -/
def store (io : IoEnv) (extra : Option (List Str)) (out : Out) (checkCfi : Bool) (o : ObjectInfo) (w : World) :
    Res Unit × World :=
  if checkCfi && !o.hasStack then (.err (str% "No CFI data"), w)
  else
    let d := destinations out o
    let text := o.display extra
    let r := match d.2 with
      | some p => writeStore io text p w
      | none => (.ok (), w)
    match r.1 with
    | .ok () =>
      match d.1 with
      | some fo => writeTo io text fo r.2
      | none => (.ok (), r.2)
    | _ => r

end Output
end DumpSyms
