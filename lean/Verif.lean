import Verif.Json
import Verif.Serde
import Verif.Enums
import Verif.Types
import Verif.Payload
import Verif.Message
import Verif.MessageLemmas
import Verif.Spec
import Verif.SpecLemmas
import Verif.Props.Message
import Verif.Props.Payload
import Verif.Convert
import Verif.Props.RoundTrip
import Verif.JsonText
import Verif.JsonGrammar
import Verif.JsonPrint
import Verif.Framing
import Verif.FrameSpec
import Verif.FrameLemmas
import Verif.Props.Framing
import Verif.Props.Wire
import Verif.Conn
import Verif.Props.Conn
import Verif.Memory
import Verif.Props.Memory
import Verif.ReqQueue
import Verif.Props.ReqQueue
import Verif.Readme
import Verif.Props.Readme
import Verif.Transport
import Verif.Props.Transport
import Verif.Api
import Verif.Props.Api
import Verif.Server
import Verif.Props.Server
import Verif.Session
import Verif.Props.Session
import Verif.Props.Peer
import Verif.Props.Blocking
import Verif.Props.Outcome
import Verif.Keeps
import Verif.Received
import Verif.Props.Relay
import Verif.MemSession
import Verif.Props.MemSession
import Verif.Sending
import Verif.Props.Sending
import Verif.Debug
import Verif.Props.Debug
import Verif.Props.Lines
import Verif.Link
import Verif.Props.Link
import Verif.Resources
import Verif.Props.Resources
import Verif.EndToEnd
import Verif.Conformance
import Verif.Props.Heard
import Verif.Props.EndToEnd
import Verif.Schema
import Verif.SchemaTable
import Verif.Props.Schema
import Verif.Double
import Verif.DoubleLemmas
import Verif.Props.Double
import Verif.Floats
import Verif.Props.Floats
import Verif.Props.DoubleError
import Verif.Props.AnyNumber
import Verif.Props.Cases
import Verif.Props.Gone
import Verif.Protocol
import Verif.Props.Protocol
import Verif.Rpc
import Verif.Props.Rpc
import Verif.Props.Served
import Verif.Pool
import Verif.Props.Pool
import Verif.Asking
import Verif.Props.Asking
import Verif.Serving
import Verif.Props.Serving
import Verif.Deal
import Verif.Props.Deal
import Verif.Crew
import Verif.Props.Crew
import Verif.Flow
import Verif.Props.Flow
import Verif.Fair
import Verif.Props.Fair
import Verif.Props.Size
import Verif.Window
import Verif.Props.Window
import Verif.Hall
import Verif.Props.Hall
import Verif.Props.Parting
import Verif.Firm
import Verif.Props.Firm
import Verif.Props.Dropped
import Verif.Desk
import Verif.Props.Desk
import Verif.Props.Effort
import Verif.Props.Backlog
import Verif.Endless
import Verif.Props.Endless
import Verif.Props.Ways
import Verif.Throng
import Verif.Props.Throng
import Verif.MemPool
import Verif.Props.MemPool
import Verif.Props.DeskParting
import Verif.Props.HangUp
import Verif.Props.HangLast
import Verif.Props.HangOpen
import Verif.MemCrew
import Verif.Props.MemCrew
import Verif.Props.ExitCode
import Verif.Props.ExitHeard
import Verif.Bridge
import Verif.Props.Bridge
import Verif.Props.Again
import Verif.Chain
import Verif.Props.Chain
import Verif.Narrow
import Verif.Props.Narrow
import Verif.Remote
import Verif.Props.Remote
import Verif.Reach
import Verif.Props.Reach
import Verif.Props.Orphan
import Verif.Props.Stranded
import Verif.Props.OrphanNarrow
import Verif.Props.Told
import Verif.Audit
