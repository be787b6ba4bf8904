/-
A check made by the build: no declaration of this project depends on an axiom other than the three
standard ones of Lean.
-/
import Lean.Util.CollectAxioms
import Lean.Elab.Command
import Verif.Props.Message
import Verif.Props.Payload
import Verif.Props.RoundTrip
import Verif.Props.Framing
import Verif.Props.Wire
import Verif.Props.Conn
import Verif.Props.Memory
import Verif.Props.ReqQueue
import Verif.Props.Readme
import Verif.Props.Transport
import Verif.Props.Api
import Verif.Props.Server
import Verif.Props.Session
import Verif.Props.Peer
import Verif.Props.Blocking
import Verif.Props.Outcome
import Verif.Props.Relay
import Verif.Props.MemSession
import Verif.Props.Sending
import Verif.Props.Debug
import Verif.Props.Lines
import Verif.Props.Link
import Verif.Props.Resources
import Verif.Props.Heard
import Verif.Props.EndToEnd
import Verif.Props.Schema
import Verif.Props.Double
import Verif.Props.Floats
import Verif.Props.DoubleError
import Verif.Props.AnyNumber
import Verif.Props.Gone
import Verif.Props.Protocol
import Verif.Props.Rpc
import Verif.Props.Served
import Verif.Props.Pool
import Verif.Props.Asking
import Verif.Props.Serving
import Verif.Props.Deal
import Verif.Props.Crew
import Verif.Props.Flow
import Verif.Props.Fair
import Verif.Props.Size
import Verif.Props.Window
import Verif.Props.Hall
import Verif.Props.Parting
import Verif.Props.Firm
import Verif.Props.Dropped
import Verif.Props.Desk
import Verif.Props.Effort
import Verif.Props.Backlog
import Verif.Props.Endless
import Verif.Props.Ways
import Verif.Props.Throng
import Verif.Props.MemPool
import Verif.Props.DeskParting
import Verif.Props.HangUp
import Verif.Props.HangLast
import Verif.Props.HangOpen
import Verif.Props.MemCrew
import Verif.Props.ExitCode
import Verif.Props.ExitHeard
import Verif.Props.Bridge
import Verif.Props.Again
import Verif.Props.Chain
import Verif.Props.Narrow
import Verif.Props.Remote
import Verif.Props.Reach
import Verif.Props.Orphan
import Verif.Props.Stranded
import Verif.Props.OrphanNarrow
import Verif.Props.Told

open Lean Elab Command in
run_cmd do
  let env ← getEnv
  let mut n : Nat := 0
  for (name, info) in env.constants.map₁ do
    if (`Bsp).isPrefixOf name then
      if let .thmInfo _ := info then
        n := n + 1
        for ax in ← liftCoreM (collectAxioms name) do
          unless [``propext, ``Classical.choice, ``Quot.sound].contains ax do
            throwError "{name} depends on {ax}"
  if n < 800 then throwError "only {n} theorems found"
