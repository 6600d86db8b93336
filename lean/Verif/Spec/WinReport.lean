import Verif.Spec.MapErrors
import Verif.Spec.WinInputs
import Verif.Spec.Object
/-!
# The errors a run on one file reports on Windows

As `Verif.Spec.Report`, with the paths of Windows.  Of the model only the descriptions of the surroundings, the options and the object files
are used.
-/
namespace DumpSyms
namespace WinHost
open Dumper (Env Config)

/-- What is said when the input cannot be dumped: its format is not known, it cannot be parsed, it has no object for the architecture,
or the functions of what is dumped cannot be listed.  The file is `filename` in the directory `pre`. -/
inductive InputError (env : Env) (buf : Bytes) (pre filename arch : Str) (symbolServer : Option Str) (w : Cache.World) : Str → Prop
  | format : env.parsers.peek buf = .other → InputError env buf pre filename arch symbolServer w (str% "Unknown file format")
  | elf (m : Str) : env.parsers.peek buf = .elf → env.parsers.elf buf = .error m → InputError env buf pre filename arch symbolServer w m
  | pdb (m : Str) : env.parsers.peek buf = .pdb → env.parsers.pdb buf = .error m → InputError env buf pre filename arch symbolServer w m
  | macho (m : Str) : env.parsers.peek buf = .machO → env.parsers.archive buf = .error m →
      InputError env buf pre filename arch symbolServer w m
  | arch (objects : List (Option ObjInput)) : env.parsers.peek buf = .machO → env.parsers.archive buf = .ok objects → objects.length ≠ 1 →
      (∀ o, some o ∈ objects → o.arch ≠ arch) → InputError env buf pre filename arch symbolServer w
        (str% "Cannot find a valid object for architecture " ++ arch ++ str% " in file " ++ filename)
  | functions (o : ObjInput) (name : Str) (pe : Option ObjInput) (peName : Option Str) (platform : Platform) (opts : Bool) (w' : Cache.World)
      (m : Str) : DumpedFrom env buf pre filename arch symbolServer w o name pe peName platform opts w' → o.functions = .error m →
      InputError env buf pre filename arch symbolServer w m

/-- What is said when nothing comes to be written: no file with the id is found, the options are wrong, or the input cannot be dumped.
They are looked at in this order. -/
inductive ReadError (env : Env) (config : Config) (pre filename : Str) (w : Cache.World) : Str → Prop
  | search (id : Str) (servers : Option (List Cache.Server)) (w' : Cache.World) :
      (config.debugId = some id ∨ config.debugId = none ∧ config.codeId = some id) →
      Configured env.home w.disk config.symbolServer servers → Search env.net filename id servers w none w' →
      ReadError env config pre filename w (str% "Impossible to get file " ++ filename ++ str% " with id " ++ id)
  | mapping (b : Bytes) (w1 : Cache.World) (m : Str) : Contents env config (pre ++ filename) filename w b w1 →
      Mapping.OptionError env.map config.mappingVar config.mappingSrc config.mappingDest config.mappingFile m →
      ReadError env config pre filename w m
  | arch (b : Bytes) (w1 : Cache.World) : Contents env config (pre ++ filename) filename w b w1 →
      Mapping.OptionsFine env.map config.mappingVar config.mappingSrc config.mappingDest config.mappingFile →
      env.parsers.arch config.arch = none → ReadError env config pre filename w (str% "arch")
  | input (b : Bytes) (w1 : Cache.World) (arch m : Str) : Contents env config (pre ++ filename) filename w b w1 →
      Mapping.OptionsFine env.map config.mappingVar config.mappingSrc config.mappingDest config.mappingFile →
      env.parsers.arch config.arch = some arch → InputError env b pre filename arch config.symbolServer w1 m →
      ReadError env config pre filename w m

end WinHost
end DumpSyms
