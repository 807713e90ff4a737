import Verif.Model.Service
import Verif.Model.Binary
/-!
# How a server is put together and serves one connection

The constructors and accessors of the two servers (tsimple_server.go:26-111,
tnonblocking_server.go:35-121 – the two files differ in nothing but the type names),
the processor factory (tprocessor_factory.go:30-40), the default transport factory
(ttransport_factory.go:33-47), the factory of the binary protocol
(tbinary_protocol.go:38-62), and the request loop of `processRequest`
(tsimple_server.go:137-161, tnonblocking_server.go:151-175).

Simplifications: factories are functions; no factory delivers nil; the list of
`Close` calls is in the order in which the deferred calls run.
-/

namespace Thrift

/-- The fields of `TSimpleServer` and `TNonblockingServer` but for the flag,
tsimple_server.go:26-35, tnonblocking_server.go:35-45.  `κ` transports, `l` server
transports, `ρ` processors, `φ` protocols. -/
structure TServer (κ l ρ φ : Type) where
  processorFactory : κ → ρ
  serverTransport : l
  inputTransportFactory : κ → κ
  outputTransportFactory : κ → κ
  inputProtocolFactory : κ → φ
  outputProtocolFactory : κ → φ

/-- `NewTProcessorFactory` and `GetProcessor`, tprocessor_factory.go:34-40. -/
def newTProcessorFactory (p : ρ) : κ → ρ := fun _ => p

/-- `NewTTransportFactory` and `GetTransport`, ttransport_factory.go:41-47. -/
def newTTransportFactory : κ → κ := fun t => t

/-- `NewTBinaryProtocolFactory` and `GetProtocol`, tbinary_protocol.go:56-62: the
transport and the settings of the new object. -/
def newTBinaryProtocolFactory (strictRead strictWrite : Bool) : κ → κ × Bin := fun t => (t, Bin.new strictRead strictWrite)

/-- `NewTBinaryProtocolFactoryDefault`, tbinary_protocol.go:52-54. -/
def newTBinaryProtocolFactoryDefault : κ → κ × Bin := newTBinaryProtocolFactory false true

namespace TServer

/-- `NewTSimpleServerFactory6`, tsimple_server.go:79-87. -/
def factory6 (pf : κ → ρ) (st : l) (itf otf : κ → κ) (ipf opf : κ → φ) : TServer κ l ρ φ := ⟨pf, st, itf, otf, ipf, opf⟩

/-- `NewTSimpleServerFactory4`, tsimple_server.go:69-77. -/
def factory4 (pf : κ → ρ) (st : l) (tf : κ → κ) (prf : κ → φ) : TServer κ l ρ φ := factory6 pf st tf tf prf prf

/-- `NewTSimpleServerFactory2`, tsimple_server.go:59-67. -/
def factory2 (pf : κ → ρ) (st : l) : TServer κ l ρ (κ × Bin) :=
  factory6 pf st newTTransportFactory newTTransportFactory newTBinaryProtocolFactoryDefault newTBinaryProtocolFactoryDefault

/-- `NewTSimpleServer6`, tsimple_server.go:49-57. -/
def new6 (p : ρ) (st : l) (itf otf : κ → κ) (ipf opf : κ → φ) : TServer κ l ρ φ :=
  factory6 (newTProcessorFactory p) st itf otf ipf opf

/-- `NewTSimpleServer4`, tsimple_server.go:41-47. -/
def new4 (p : ρ) (st : l) (tf : κ → κ) (prf : κ → φ) : TServer κ l ρ φ := factory4 (newTProcessorFactory p) st tf prf

/-- `NewTSimpleServer2`, tsimple_server.go:37-39. -/
def new2 (p : ρ) (st : l) : TServer κ l ρ (κ × Bin) := factory2 (newTProcessorFactory p) st

/-- What `processRequest` sets up for a connection, tsimple_server.go:138-148. -/
structure Session (κ ρ φ : Type) where
  processor : ρ
  input : φ
  output : φ
  /-- The transports that are closed in the end, in this order. -/
  closes : List κ

/-- tsimple_server.go:138-148: deferred calls run in the reverse order. -/
def session (s : TServer κ l ρ φ) (client : κ) : Session κ ρ φ where
  processor := s.processorFactory client
  input := s.inputProtocolFactory (s.inputTransportFactory client)
  output := s.outputProtocolFactory (s.outputTransportFactory client)
  closes := [s.outputTransportFactory client, s.inputTransportFactory client]

end TServer

/-- The request loop, tsimple_server.go:149-160.  `stopped k` is the value of the flag
when it is looked at after the `k`th request; it is looked at only if there is an
error. -/
def requestLoop (proc : P π (Bool × GoErr)) (stopped : Nat → Bool) : Nat → Nat → P π Unit
  | 0, _ => P.stuck
  | fuel + 1, k => do
    let (ok, e) ← proc
    if e.isSome && !stopped k then return ()
    if !ok then return ()
    requestLoop proc stopped fuel (k + 1)

end Thrift
