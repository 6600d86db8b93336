import Verif.Model.WinRun
/-!
# Writing on a Windows machine whose disk does not tell apart names that differ in case only

The file systems of Windows compare names after replacing each character by its upper-case counterpart, from a table kept on the disk.  Here the table is
any map `fold` of characters.  The file that a call with the path `p` is about is known by the folded path.
-/
namespace DumpSyms
namespace WinHost
open Output (FileOutput Todo)
open Run (Orders)

/-- The destination that a name (src/dumper.rs:29-34 `enum FileOutput`) leads to. -/
def foldDest (fold : Char → Char) : FileOutput → FileOutput
  | .path p => .path (p.map fold)
  | .stdout => .stdout
  | .stderr => .stderr

/-- A call of src/dumper.rs:188-201 or 229-237, as the disk understands it. -/
def foldTodo (fold : Char → Char) : Todo → Todo
  | .mkdirs d => .mkdirs (d.map fold)
  | .create p => .create (p.map fold)
  | .write fo pos bytes => .write (foldDest fold fo) pos bytes

/-- The calls that a module takes (src/dumper.rs:203-246), as the disk understands them. -/
def foldedCalls (fold : Char → Char) (io : Output.IoEnv) (extra : Option (List Str)) (out : Output.Out) (checkCfi : Bool) (o : ObjectInfo) : List Todo :=
  (callsOf io extra out checkCfi o).map (foldTodo fold)

/-- The moments of src/dumper.rs:455-510 `several_files` on such a disk. -/
def FoldedMoments (env : Dumper.Env) (fold : Char → Char) (extra : Option (List Str)) (config : Dumper.Config) (files : List Str) (ws : Nat → Cache.World)
    (orders : Orders) (mapping : Option (List Mapping.Generator)) (arch : Str) (out : Output.World) : Threads.Moment → Prop :=
  Threads.Moments (threads env extra config files ws orders mapping arch out) (foldedCalls fold env.io extra config.output config.checkCfi) out

end WinHost
end DumpSyms
