/- Lists the theorems `Cnn_…` of the project that do not depend on `sorryAx`. -/
import Lean
import Verif.All
open Lean Elab Command in
run_cmd do
  let env ← getEnv
  for (name, info) in env.constants.map₁ do
    if (`Bsp).isPrefixOf name && info.isTheorem then
      if let .str _ s := name then
        if s.startsWith "C" && (s.toList.drop 1 |>.head?.any Char.isDigit) then
          let ax ← liftCoreM (collectAxioms name)
          unless ax.contains ``sorryAx do IO.println name
