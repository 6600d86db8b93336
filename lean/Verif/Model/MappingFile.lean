import Verif.Model.Mapping
/-!
# Model of the mapping file: the deserialization derived for src/mapping.rs:17-28

`serde_json` reads JSON text (a parameter); what is modelled here is the code that `#[derive(Deserialize)]` makes of the two structs, on the values it meets.
A struct is read from an object or from an array of its fields in order; keys that are no field are skipped; a field that is missing, or given
twice, is an error.
-/
namespace DumpSyms
namespace Mapping

/-- A JSON value. The entries of an object are kept as written. -/
inductive Json where
  | null
  | bool (b : Bool)
  | number (text : Str)
  | string (s : Str)
  | array (l : List Json)
  | object (l : List (Str × Json))

namespace Json

/-- `String` (src/mapping.rs:19-20). -/
def asString : Json → Option Str
  | string s => some s
  | _ => none

/-- The elements of a `HashSet<String>` (src/mapping.rs:21). -/
def asStrings : Json → Option (List Str)
  | array l => l.mapM asString
  | _ => none

/-- The loop of `HashMap<String, String>` (src/mapping.rs:26). -/
def varsLoop : List (Str × Json) → List (Str × Str) → Option (List (Str × Str))
  | [], m => some m
  | (k, v) :: rest, m =>
    match v.asString with
    | some x => varsLoop rest (insertVar m k x)
    | none => none

/-- `HashMap<String, String>` (src/mapping.rs:26). -/
def asVars : Json → Option (List (Str × Str))
  | object l => varsLoop l []
  | _ => none

/-- src/mapping.rs:17-28 (derived `visit_map`): the value of a field, an error if the field was met before. -/
def once {α : Type} : Option α → Option α → Option α
  | none, v => v
  | some _, _ => none

/-- src/mapping.rs:17-22 (derived `visit_map` of `Mapping`): the end, an error if a field was not met. -/
def entryEnd : Option Str → Option Str → Option (List Str) → Option Entry
  | some source, some destination, some files => some { source, destination, files }
  | _, _, _ => none

/-- src/mapping.rs:17-22 (derived `visit_map` of `Mapping`): the entries of the object, with the fields met so far. -/
def entryLoop : List (Str × Json) → Option Str → Option Str → Option (List Str) → Option Entry
  | [], s, d, f => entryEnd s d f
  | (k, v) :: rest, s, d, f =>
    if k = str% "source" then (once s v.asString).bind fun x => entryLoop rest (some x) d f
    else if k = str% "destination" then (once d v.asString).bind fun x => entryLoop rest s (some x) f
    else if k = str% "files" then (once f v.asStrings).bind fun x => entryLoop rest s d (some x)
    else entryLoop rest s d f

/-- src/mapping.rs:17-22: the derived `Deserialize` of `Mapping`. -/
def asEntry : Json → Option Entry
  | object l => entryLoop l none none none
  | array [a, b, c] =>
    entryEnd a.asString b.asString c.asStrings
  | _ => none

/-- `Vec<Mapping>` (src/mapping.rs:27). -/
def asEntries : Json → Option (List Entry)
  | array l => l.mapM asEntry
  | _ => none

/-- src/mapping.rs:24-28 (derived `visit_map` of `Mappings`): the end, an error if a field was not met. -/
def fileEnd : Option (List (Str × Str)) → Option (List Entry) → Option MappingsFile
  | some variables, some mappings => some { variables, mappings }
  | _, _ => none

/-- src/mapping.rs:24-28 (derived `visit_map` of `Mappings`): the entries of the object, with the fields met so far. -/
def fileLoop : List (Str × Json) → Option (List (Str × Str)) → Option (List Entry) → Option MappingsFile
  | [], vs, ms => fileEnd vs ms
  | (k, v) :: rest, vs, ms =>
    if k = str% "variables" then (once vs v.asVars).bind fun x => fileLoop rest (some x) ms
    else if k = str% "mappings" then (once ms v.asEntries).bind fun x => fileLoop rest vs (some x)
    else fileLoop rest vs ms

/-- src/mapping.rs:24-28: the derived `Deserialize` of `Mappings`. -/
def asFile : Json → Option MappingsFile
  | object l => fileLoop l none none
  | array [a, b] =>
    fileEnd a.asVars b.asEntries
  | _ => none

end Json

/-- src/mapping.rs:33 `serde_json::from_slice::<Mappings>`, with `parse` the reader of JSON text (`none`: not JSON). -/
def fromSlice (parse : List Nat → Option Json) (data : List Nat) : Option MappingsFile := (parse data).bind Json.asFile

end Mapping
end DumpSyms
