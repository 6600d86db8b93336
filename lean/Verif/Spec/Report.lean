import Verif.Spec.MapErrors
import Verif.Spec.Inputs
import Verif.Spec.Object
/-!
# The errors a run on one file reports

Of the model only the descriptions of the surroundings, the options and the object files are used.
-/
namespace DumpSyms
namespace Dumper

/-- What is said when the input cannot be dumped: its format is not known, it cannot be parsed, it has no object for the architecture,
or the functions of what is dumped cannot be listed. -/
inductive InputError (env : Env) (buf : Bytes) (path filename arch : Str) (symbolServer : Option Str) (w : Cache.World) : Str → Prop
  | format : env.parsers.peek buf = .other → InputError env buf path filename arch symbolServer w (str% "Unknown file format")
  | elf (m : Str) : env.parsers.peek buf = .elf → env.parsers.elf buf = .error m → InputError env buf path filename arch symbolServer w m
  | pdb (m : Str) : env.parsers.peek buf = .pdb → env.parsers.pdb buf = .error m → InputError env buf path filename arch symbolServer w m
  | macho (m : Str) : env.parsers.peek buf = .machO → env.parsers.archive buf = .error m →
      InputError env buf path filename arch symbolServer w m
  | arch (objects : List (Option ObjInput)) : env.parsers.peek buf = .machO → env.parsers.archive buf = .ok objects → objects.length ≠ 1 →
      (∀ o, some o ∈ objects → o.arch ≠ arch) → InputError env buf path filename arch symbolServer w
        (str% "Cannot find a valid object for architecture " ++ arch ++ str% " in file " ++ filename)
  | functions (o : ObjInput) (name : Str) (pe : Option ObjInput) (peName : Option Str) (platform : Platform) (opts : Bool) (w' : Cache.World)
      (m : Str) : DumpedFrom env buf path filename arch symbolServer w o name pe peName platform opts w' → o.functions = .error m →
      InputError env buf path filename arch symbolServer w m

/-- What is said when nothing comes to be written: no file with the id is found, the options are wrong, or the input cannot be dumped.
They are looked at in this order. -/
inductive ReadError (env : Env) (config : Config) (path filename : Str) (w : Cache.World) : Str → Prop
  | search (id : Str) (servers : Option (List Cache.Server)) (w' : Cache.World) :
      (config.debugId = some id ∨ config.debugId = none ∧ config.codeId = some id) →
      Cache.Configured env.home w.disk config.symbolServer servers → Cache.Search env.net filename id servers w none w' →
      ReadError env config path filename w (str% "Impossible to get file " ++ filename ++ str% " with id " ++ id)
  | mapping (b : Bytes) (w1 : Cache.World) (m : Str) : Contents env config path filename w b w1 →
      Mapping.OptionError env.map config.mappingVar config.mappingSrc config.mappingDest config.mappingFile m →
      ReadError env config path filename w m
  | arch (b : Bytes) (w1 : Cache.World) : Contents env config path filename w b w1 →
      Mapping.OptionsFine env.map config.mappingVar config.mappingSrc config.mappingDest config.mappingFile →
      env.parsers.arch config.arch = none → ReadError env config path filename w (str% "arch")
  | input (b : Bytes) (w1 : Cache.World) (arch m : Str) : Contents env config path filename w b w1 →
      Mapping.OptionsFine env.map config.mappingVar config.mappingSrc config.mappingDest config.mappingFile →
      env.parsers.arch config.arch = some arch → InputError env b path filename arch config.symbolServer w1 m →
      ReadError env config path filename w m

end Dumper
end DumpSyms
