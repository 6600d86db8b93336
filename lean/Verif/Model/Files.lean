import Verif.Model.Utils
/-!
# Model of reading files: the file-system part of src/utils.rs

A disk maps path strings to nodes (simplification: links are followed by the map, two spellings of one path may be given
different nodes).  Opening a cabinet and decompressing its entries (crate `cab`) is a parameter.
-/
namespace DumpSyms

abbrev Bytes := List Nat

/-- What is at a path.  A file may be unreadable; a directory has the names of its entries. -/
inductive Node where
  | file (bytes : Bytes) (readable : Bool)
  | dir (entries : List Str)
  deriving DecidableEq, Repr

/-- A disk. -/
abbrev Disk := Str → Option Node

/-- `Path::is_file`. -/
def Disk.isFile (d : Disk) (p : Str) : Bool :=
  match d p with
  | some (.file _ _) => true
  | _ => false

/-- `Path::exists`. -/
def Disk.exists? (d : Disk) (p : Str) : Bool := (d p).isSome

/-- A disk after a file has been written. -/
def Disk.write (d : Disk) (p : Str) (b : Bytes) : Disk := fun q => if q = p then some (.file b true) else d q

/-- `Cabinet::new` and `Cabinet::read_file`: the entries of a cabinet with their contents (`none` inside: the entry cannot be
decompressed); `none` when the bytes are not a cabinet. -/
abbrev Cab := Bytes → Option (List (Str × Option Bytes))

namespace Files

/-- src/utils.rs:156-170 `get_cabinet_files`: the first entry with the wanted file name.  Panics when an entry met before has no file name.
Simplification: the entry itself is returned; the code returns its name and looks the name up again, which gives the first
entry of that name, that is the same entry. -/
def findEntry (wanted : Str) : List (Str × Option Bytes) → Res (Option (Str × Option Bytes))
  | [] => .ok none
  | e :: es =>
    match Path.fileName e.1 with
    | none => .panic
    | some n => if n = wanted then .ok (some e) else findEntry wanted es

/-- src/utils.rs:112-139 `read_cabinet`.  `ok none` is the `None` of the code. -/
def readCabinet (cab : Cab) (buf : Bytes) (path : Str) : Res (Option Bytes) :=
  match cab buf with
  | none => .ok (some buf)
  | some entries =>
    match Utils.getCorrectedPath path with
    | .ok p =>
      match Path.fileName p with
      | none => .panic
      | some wanted =>
        match findEntry wanted entries with
        | .ok (some e) => .ok e.2
        | .ok none => .ok none
        | .err m => .err m
        | .panic => .panic
    | .err m => .err m
    | .panic => .panic

/-- src/utils.rs:76-110 `get_mac_bundle`: the file to read instead of a directory. -/
def macBundle (d : Disk) (path : Str) : Res Str :=
  let dwarf := Path.push path (str% "Contents/Resources/DWARF")
  match d dwarf with
  | some (.dir [e]) => .ok (Path.push dwarf e)
  | _ => .panic

/-- src/utils.rs:13-34 `read_file`: everything that goes wrong is a panic. -/
def readFile (cab : Cab) (d : Disk) (path : Str) : Res Bytes :=
  let target : Res Str :=
    match d path with
    | none => .panic
    | some (.dir _) => macBundle d path
    | some (.file _ _) => .ok path
  match target with
  | .ok p =>
    match d p with
    | some (.file b true) =>
      match readCabinet cab b p with
      | .ok (some r) => .ok r
      | _ => .panic
    | _ => .panic
  | _ => .panic

end Files
end DumpSyms
