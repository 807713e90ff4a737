import Verif.Model.Binary
import Verif.Model.Compact
import Verif.Model.Skip
import Verif.Model.Driver
import Verif.Props.Binary
import Verif.Props.Skip
import Verif.Props.Compact
import Verif.Props.Transport
import Verif.Props.Connection
import Verif.Props.Types
import Verif.Props.Collections
import Verif.Props.Generated
import Verif.Props.Exceptions
import Verif.Props.Service
import Verif.Props.Failures
import Verif.Props.SimpleServer
import Verif.Props.Json
import Verif.Props.JsonStrict
import Verif.Props.Network
import Verif.Props.Comparison
import Verif.Props.GeneratedWire
import Verif.Props.Processor
import Verif.Props.GeneratedJson
import Verif.Props.UnknownJson
import Verif.Props.GeneratedCompact
import Verif.Props.ShortWrites
import Verif.Props.JsonBroken
import Verif.Props.Http
import Verif.Props.HttpService
import Verif.Props.NonblockingServer
import Verif.Props.IsSet
import Verif.Props.Restart
import Verif.Props.CompactService
import Verif.Props.Hostile
import Verif.Props.Termination
import Verif.Props.Emitted
import Verif.Props.ServerSocket
import Verif.Props.HostileReplies
import Verif.Props.JsonService
import Verif.Props.Deadline
import Verif.Props.Buffered
import Verif.Props.Lifecycle
import Verif.Props.Fresh
import Verif.Props.ForeignException
import Verif.Props.Containers
import Verif.Props.Numeric
import Verif.Props.Package
import Verif.Props.Typedef
import Verif.Props.Remote
import Verif.Props.CompactForms
import Verif.Props.FieldOrder
import Verif.Props.BinaryForms
import Verif.Props.Metadata
import Verif.Props.AcceptTimeout
import Verif.Props.CompactLoose
import Verif.Props.RequestLoop
import Verif.Props.NamedService
import Verif.Props.AnyRequests
import Verif.Props.Docs
import Verif.Props.Extends
import Verif.Props.Asks
import Verif.Props.SkipWork
import Verif.Props.CompactTalk
import Verif.Props.Versions
import Verif.Props.Across
import Verif.Props.Forward
import Verif.Props.Relay
import Verif.Props.Places
import Verif.Props.Answers
import Verif.Props.CompactAcross
import Verif.Props.WholeAnswer
import Verif.Props.SequenceIds
import Verif.Props.WholeCompact
