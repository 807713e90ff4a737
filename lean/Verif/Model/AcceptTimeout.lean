import Verif.Model.ServerSocket
import Verif.Model.Deadline
/-!
# Timeouts of accepted connections

What `tserver_socket.go` and `tnonblocking_server_socket.go` do with the timeout,
which `Model/ServerSocket.lean` leaves out.
-/

namespace Thrift

/-- `TServerSocket`, tserver_socket.go:26-46, and `TNonblockingServerSocket`,
tnonblocking_server_socket.go:29-36, with `nsecClientTimeout` or `nsecTimeout`. -/
structure TimedSrv (ℓ : Type) where
  sock : SrvSock ℓ
  timeout : Int

namespace TimedSrv

/-- `NewTServerSocketAddrTimeout`, tserver_socket.go:81-84,
`NewTNonblockingServerSocketAddrTimeout`, tnonblocking_server_socket.go:68-71. -/
protected def new (addr : Option (Bytes × Bytes)) (timeout : Int) : TimedSrv ℓ := ⟨SrvSock.new addr, timeout⟩

/-- `NewTServerSocketAddr`, tserver_socket.go:77-79, `NewTNonblockingServerSocketAddr`,
tnonblocking_server_socket.go:63-66. -/
def ofAddr (addr : Option (Bytes × Bytes)) : TimedSrv ℓ := ⟨SrvSock.new addr, 0⟩

/-- `NewTNonblockingServerSocketListener`, tnonblocking_server_socket.go:58-61. -/
def ofListener (l : ℓ) (addr : Option (Bytes × Bytes)) : TimedSrv ℓ := ⟨SrvSock.ofListener l addr, 0⟩

/-- `TNonblockingServerSocket.SetTimeout`, tnonblocking_server_socket.go:82-85. -/
def setTimeout (t : Int) (s : TimedSrv ℓ) : TimedSrv ℓ := { s with timeout := t }

/-- The socket of an accepted connection, `NewTSocketConnTimeout`, tsocket.go:64-71,
with its remote and its local address, called in tserver_socket.go:108 and
tnonblocking_server_socket.go:145. -/
def accepted (s : TimedSrv ℓ) (remote local_ : Option (Bytes × Bytes)) : TSock :=
  ⟨true, match remote with | some a => some a | none => local_, s.timeout, []⟩

end TimedSrv

/-- A transport as the factories of server sockets tell it apart. -/
inductive SomeTransport (ℓ : Type) where
  | server (s : TimedSrv ℓ)
  | nonblocking (s : TimedSrv ℓ)
  | other

/-- `TServerSocketTransportFactory.GetTransport`, tserver_socket.go:53-63, of the
factory made with `addr` and `timeout` (L65-67). -/
def serverSocketFactory (addr : Option (Bytes × Bytes)) (timeout : Int) (trans : Option (SomeTransport ℓ)) : TimedSrv ℓ :=
  match trans with
  | some (.server s) => match s.sock.addr with
    | some a => TimedSrv.new (some a) s.timeout
    | none => TimedSrv.new addr timeout
  | _ => TimedSrv.new addr timeout

/-- `TNonblockingServerSocketTransportFactory.GetTransport`,
tnonblocking_server_socket.go:42-52, of the factory made with `addr` (L54-56). -/
def nbServerSocketFactory (addr : Option (Bytes × Bytes)) (trans : Option (SomeTransport ℓ)) : TimedSrv ℓ :=
  match trans with
  | some (.nonblocking s) => match s.sock.addr with
    | some a => TimedSrv.new (some a) s.timeout
    | none => TimedSrv.ofAddr addr
  | _ => TimedSrv.ofAddr addr

/-- Calls on a server socket that has a timeout. -/
inductive AcceptOp where
  | «open» | listen | accept | close | setTimeout (t : Int)

/-- What the nonblocking server socket does in a call, and the connection it has
accepted in it, tnonblocking_server_socket.go:73-107, 137-164. -/
def TimedSrv.nbStep (N : LNet ℓ κ ν) (op : AcceptOp) (s : TimedSrv ℓ) (n : ν) : Option κ × TimedSrv ℓ × ν :=
  match op with
  | .open | .listen => let (_, s', n) := SrvSock.open N s.sock n; (none, ⟨s', s.timeout⟩, n)
  | .accept => let (r, s', n) := SrvSock.nbAccept N s.sock n
    (match r with | .ok (c, _) => c | _ => none, ⟨s', s.timeout⟩, n)
  | .close => let (_, s', n) := SrvSock.close N s.sock n; (none, ⟨s', s.timeout⟩, n)
  | .setTimeout t => (none, s.setTimeout t, n)

/-- The same for `TServerSocket`, tserver_socket.go:86-132, 169-186, which has no
`SetTimeout`. -/
def TimedSrv.step (N : LNet ℓ κ ν) (op : AcceptOp) (s : TimedSrv ℓ) (n : ν) : Option κ × TimedSrv ℓ × ν :=
  match op with
  | .open => let (_, s', n) := SrvSock.open N s.sock n; (none, ⟨s', s.timeout⟩, n)
  | .listen => let (_, s', n) := SrvSock.listen N s.sock n; (none, ⟨s', s.timeout⟩, n)
  | .accept => let (r, s', n) := SrvSock.accept N s.sock n
    (match r with | .ok (c, _) => c | _ => none, ⟨s', s.timeout⟩, n)
  | .close => let (_, s', n) := SrvSock.close N s.sock n; (none, ⟨s', s.timeout⟩, n)
  | .setTimeout _ => (none, s, n)

/-- A history of calls: the accepted connections with the timeouts of their sockets
(of `TimedSrv.accepted`), and the state in the end. -/
def TimedSrv.history (step : AcceptOp → TimedSrv ℓ → ν → Option κ × TimedSrv ℓ × ν) :
    List AcceptOp → TimedSrv ℓ → ν → List (κ × (Option (Bytes × Bytes) → Option (Bytes × Bytes) → TSock)) × TimedSrv ℓ × ν
  | [], s, n => ([], s, n)
  | op :: ops, s, n =>
    let (c, s', n') := step op s n
    let (cs, e) := TimedSrv.history step ops s' n'
    ((match c with | some c => [(c, s.accepted)] | none => []) ++ cs, e)

end Thrift
