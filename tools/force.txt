/- Elaborates one module of the project and writes its .olean even if there are errors (a theorem whose proof
fails is then recorded with `sorryAx`), so that one wrong definition does not hide what happens further down.
Only for scratch copies. Usage: lean --run force.lean file module olean -/
import Lean
open Lean Elab

unsafe def main (args : List String) : IO Unit := do
  let [file, modName, olean] := args | throw (IO.userError "usage")
  initSearchPath (← findSysroot)
  enableInitializersExecution
  let src ← IO.FS.readFile file
  let ictx := Parser.mkInputContext src file
  let (header, pstate, messages) ← Parser.parseHeader ictx
  let opts : Options := ({} : Options) |>.setBool `Elab.async false
  let (env, messages) ← processHeader header opts messages ictx (mainModule := modName.toName)
  let st ← IO.processCommands ictx pstate (Command.mkState env messages opts)
  for m in st.commandState.messages.toList do
    if m.severity == .error then
      IO.println s!"error: {file}:{m.pos.line}:{m.pos.column}: {((← m.data.toString).take 160).toString.replace "\n" " "}"
  writeModule st.commandState.env olean
