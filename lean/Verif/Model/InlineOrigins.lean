import Verif.Model.Common
/-!
# Model of src/inline_origins.rs

The demangler of the `symbolic` crate is a parameter `dm : Name → Option Str`.
-/
namespace DumpSyms

/-- The demangler (`Name::demangle` with the options of src/common.rs:17-19): any partial function. -/
abbrev Demangler := Name → Option Str

/-- src/inline_origins.rs:9-13 `struct InlineOrigins`.  The hash map is an association list; only lookups are made. -/
structure InlineOrigins where
  demangledNames : List Str
  index : List (Name × Nat)
  deriving DecidableEq, Repr

namespace InlineOrigins

/-- `#[derive(Default)]`. -/
def empty : InlineOrigins := { demangledNames := [], index := [] }

/-- src/inline_origins.rs:41-55 `InlineOrigins::demangle`. -/
def demangle (dm : Demangler) (name : Name) : Str :=
  let name := Common.fixSymbolName name
  if name.lang = .c then name.text
  else match dm name with
    | some d => d
    | none => name.text

/-- src/inline_origins.rs:32-39 `InlineOrigins::demangle_and_sanitize`. -/
def demangleAndSanitize (dm : Demangler) (name : Name) : Str :=
  (demangle dm name).filter fun c => !isAsciiControl c

/-- src/inline_origins.rs:16-26 `InlineOrigins::get_id`. -/
def getId (dm : Demangler) (s : InlineOrigins) (name : Name) : Nat × InlineOrigins :=
  match s.index.lookup name with
  | some i => (i, s)
  | none =>
    let i := u32 s.demangledNames.length
    (i, { demangledNames := s.demangledNames ++ [demangleAndSanitize dm name], index := (name, i) :: s.index })

/-- src/inline_origins.rs:28-30 `InlineOrigins::get_list`. -/
def getList (s : InlineOrigins) : List Str := s.demangledNames

/-- src/inline_origins.rs:60-80 `merge_inline_origins`: the new `left` and the id table for `right`.  (`offset + count` wraps, and a
range that would end before it starts is empty.) -/
def merge (left right : List Str) : List Str × List Nat :=
  if right = [] then (left, [])
  else if left = [] then (right, List.range (u32 right.length))
  else
    let offset := u32 left.length
    (left ++ right, (List.range (wadd offset (u32 right.length) - offset)).map fun i => offset + i)

end InlineOrigins
end DumpSyms
