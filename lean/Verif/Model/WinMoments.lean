import Verif.Model.WinRun
/-!
# The moments of a process on a Windows machine

As `Output.Written` and `Run.During`, with the paths of Windows.
-/
namespace DumpSyms
namespace WinHost
open Output (Out IoEnv Todo)
open Run (Options Orders actionOf)

/-- The states that the writing of a module goes through (src/dumper.rs:203-246): the calls left, and what is written so far. -/
inductive Written (io : IoEnv) (extra : Option (List Str)) (out : Out) (checkCfi : Bool) (o : ObjectInfo) (w : Output.World) :
    List Todo → Output.World → Prop where
  | start : Written io extra out checkCfi o w (callsOf io extra out checkCfi o) w
  | call (k : Nat) (t : Todo) (ts : List Todo) (w' : Output.World) (hk : 0 < k) (h : Written io extra out checkCfi o w (t :: ts) w') :
      Written io extra out checkCfi o w ((t.make k w').1 ++ ts) (t.make k w').2

/-- What the destinations can hold at some moment of a process that dumps (src/main.rs:140-246), for example when it is killed: before
anything is written, while the module of a single file is written, or while the threads of a run over several files are at work. -/
inductive During (env : Dumper.Env) (version : Str) (cpus : Nat) (o : Options) (w : Cache.World) (orders : Orders) (out : Output.World) :
    Output.World → Prop where
  | before : During env version cpus o w orders out out
  | single (extra : List Str) (config : Dumper.Config) (f : Str) (m : ObjectInfo) (todo : List Todo) (out' : Output.World)
      (h : Main.getExtraInfo version o.extraInfo o.noGenerator = .ok extra) (ha : actionOf cpus o = .dump config) (hf : o.filenames = [f])
      (hm : (readSingle env config f w).1 = .ok m)
      (hw : Written env.io (some extra) config.output config.checkCfi m out todo out') : During env version cpus o w orders out out'
  | several (extra : List Str) (config : Dumper.Config) (mapping : Option (List Mapping.Generator)) (arch : Str)
      (ws : Nat → Cache.World) (m : Threads.Moment) (hw : ∀ i, Meanwhile env w (ws i))
      (h : Main.getExtraInfo version o.extraInfo o.noGenerator = .ok extra) (ha : actionOf cpus o = .dump config)
      (hf : o.filenames.length ≠ 1) (hp : Dumper.prepare env config = .ok (mapping, arch))
      (hm : Threads.Moments (threads env (some extra) config o.filenames ws orders mapping arch out)
        (callsOf env.io (some extra) config.output config.checkCfi) out m) : During env version cpus o w orders out m.out

end WinHost
end DumpSyms
