import Verif.Model.Socket
/-!
# Server sockets

`tserver_socket.go`, `tnonblocking_server_socket.go`, used from one goroutine.
(`Model/SimpleServer.lean` and `Model/NonblockingServer.lean` have the races
between `Serve` and `Stop`.)
-/

namespace Thrift

/-- The network as a server socket sees it: `ℓ` identifies listeners, `κ`
connections, `ν` is the state of everything outside.  `listen` is `net.Listen`
with a network name and an address text, `accept` and `close` are the methods of
`net.Listener`.  Nothing is assumed about their answers. -/
structure LNet (ℓ κ ν : Type) where
  listen : Bytes → Bytes → ν → Except Err ℓ × ν
  accept : ℓ → ν → Except Err κ × ν
  close : ℓ → ν → GoErr × ν

/-- Fields of `TServerSocket`, tserver_socket.go:26-46, and of
`TNonblockingServerSocket`, tnonblocking_server_socket.go:29-36: the listener and
the address as network name and text (`none` is nil).  Simplification: `conn` of
`TServerSocket` is nil, as only the constructors from a connection set it; the
timeout is passed on and has no effect here. -/
structure SrvSock (ℓ : Type) where
  listener : Option ℓ
  addr : Option (Bytes × Bytes)

namespace SrvSock

/-- The constructors from an address, tserver_socket.go:77-84,
tnonblocking_server_socket.go:63-71; no address is refused. -/
protected def new (addr : Option (Bytes × Bytes)) : SrvSock ℓ := ⟨none, addr⟩

/-- `NewTNonblockingServerSocketListener`, tnonblocking_server_socket.go:58-61. -/
def ofListener (l : ℓ) (addr : Option (Bytes × Bytes)) : SrvSock ℓ := ⟨some l, addr⟩

/-- `IsOpen` and `Peek`, tserver_socket.go:114-116, 162-164,
tnonblocking_server_socket.go:90-92, 148-150. -/
def isOpen (s : SrvSock ℓ) : Bool := s.listener.isSome

/-- tserver_socket.go:131, tnonblocking_server_socket.go:106. -/
def alreadyOpen : Err := newTTransportException ALREADY_OPEN (ascii "Server socket already open")
/-- tserver_socket.go:101, tnonblocking_server_socket.go:139. -/
def noSocket : Err := newTTransportException NOT_OPEN (ascii "No underlying server socket")
/-- The error of `Read`, `Write` and `Flush`, tserver_socket.go:137-157,
tnonblocking_server_socket.go:112-132 (texts shortened). -/
def notImplemented : Err := newTTransportException UNKNOWN_TRANSPORT_EXCEPTION (ascii "not implemented")

variable (N : LNet ℓ κ ν)

/-- `Open` of both, tserver_socket.go:121-132, tnonblocking_server_socket.go:97-107,
and `Listen` of the nonblocking one, L73-75.  A nil address panics. -/
protected def «open» (s : SrvSock ℓ) (n : ν) : Res GoErr × SrvSock ℓ × ν :=
  if s.isOpen then (.ok (some alreadyOpen), s, n)
  else match s.addr with
    | none => (.panic, s, n)
    | some (network, text) =>
      match N.listen network text n with
      | (.ok l, n) => (.ok none, { s with listener := some l }, n)
      | (.error e, n) => (.ok (some e), s, n)

/-- `TServerSocket.Listen`, tserver_socket.go:86-93. -/
protected def listen (s : SrvSock ℓ) (n : ν) : Res GoErr × SrvSock ℓ × ν :=
  match s.listener with
  | some _ => (.ok none, s, n)
  | none => match s.addr with
    | none => (.panic, s, n)
    | some (_, text) =>
      match N.listen (ascii "tcp") text n with
      | (.ok l, n) => (.ok none, { s with listener := some l }, n)
      | (.error e, n) => (.ok (some e), s, n)

/-- Accepting on a listener, tserver_socket.go:104-108,
tnonblocking_server_socket.go:141-145. -/
def acceptOn (l : ℓ) (s : SrvSock ℓ) (n : ν) : Res (Option κ × GoErr) × SrvSock ℓ × ν :=
  match N.accept l n with
  | (.ok c, n) => (.ok (some c, none), s, n)
  | (.error e, n) => (.ok (none, transportFromOsError (some e)), s, n)

/-- `TServerSocket.Accept`, tserver_socket.go:95-109. -/
protected def accept (s : SrvSock ℓ) (n : ν) : Res (Option κ × GoErr) × SrvSock ℓ × ν :=
  match s.listener with
  | some l => acceptOn N l s n
  | none =>
    match SrvSock.listen N s n with
    | (.ok none, s, n) =>
      match s.listener with
      | some l => acceptOn N l s n
      | none => (.ok (none, some noSocket), s, n)
    | (.ok (some e), s, n) => (.ok (none, transportFromOsError (some e)), s, n)
    | (.panic, s, n) => (.panic, s, n)
    | (.stuck, s, n) => (.stuck, s, n)

/-- `TNonblockingServerSocket.Accept`, tnonblocking_server_socket.go:137-146. -/
def nbAccept (s : SrvSock ℓ) (n : ν) : Res (Option κ × GoErr) × SrvSock ℓ × ν :=
  match s.listener with
  | some l => acceptOn N l s n
  | none => (.ok (none, some noSocket), s, n)

/-- `Close`, tserver_socket.go:169-186, tnonblocking_server_socket.go:155-164;
also `Interrupt`, L188-191 and L166-169. -/
protected def close (s : SrvSock ℓ) (n : ν) : GoErr × SrvSock ℓ × ν :=
  match s.listener with
  | none => (none, s, n)
  | some l =>
    match N.close l n with
    | (some e, n) => (transportFromOsError (some e), s, n)
    | (none, n) => (none, { s with listener := none }, n)

end SrvSock

/-- The calls on a server socket. -/
inductive LOp where
  | «open» | listen | accept | close | interrupt | read | write | flush
  deriving DecidableEq

/-- What a call answers: its error, the connection if there is one, or that it
panicked. -/
inductive LAns (κ : Type) where
  | done (e : GoErr) (conn : Option κ)
  | panicked

/-- The answer of a call that only has an error. -/
def LAns.ofRes : Res GoErr → LAns κ
  | .ok e => .done e none
  | _ => .panicked

/-- The answer of `Accept`. -/
def LAns.ofAccept : Res (Option κ × GoErr) → LAns κ
  | .ok (c, e) => .done e c
  | _ => .panicked

/-- A call on a `TServerSocket`. -/
def LOp.run (N : LNet ℓ κ ν) (op : LOp) (s : SrvSock ℓ) (n : ν) : LAns κ × SrvSock ℓ × ν :=
  match op with
  | .open => let (r, x) := s.open N n; (.ofRes r, x)
  | .listen => let (r, x) := s.listen N n; (.ofRes r, x)
  | .accept => let (r, x) := s.accept N n; (.ofAccept r, x)
  | .close | .interrupt => let (e, x) := s.close N n; (.done e none, x)
  | .read | .write | .flush => (.done (some SrvSock.notImplemented) none, s, n)

/-- A call on a `TNonblockingServerSocket`. -/
def LOp.runNb (N : LNet ℓ κ ν) (op : LOp) (s : SrvSock ℓ) (n : ν) : LAns κ × SrvSock ℓ × ν :=
  match op with
  | .open | .listen => let (r, x) := s.open N n; (.ofRes r, x)
  | .accept => let (r, x) := s.nbAccept N n; (.ofAccept r, x)
  | .close | .interrupt => let (e, x) := s.close N n; (.done e none, x)
  | .read | .write | .flush => (.done (some SrvSock.notImplemented) none, s, n)

/-- Calls one after the other, with their answers. -/
def runCalls (step : LOp → SrvSock ℓ → ν → LAns κ × SrvSock ℓ × ν) :
    List LOp → SrvSock ℓ → ν → List (LOp × LAns κ) × SrvSock ℓ × ν
  | [], s, n => ([], s, n)
  | op :: ops, s, n =>
    let (a, s, n) := step op s n
    let (as, s, n) := runCalls step ops s n
    ((op, a) :: as, s, n)

end Thrift
