import Verif.Model.Transport
/-!
# Socket transports

`tsocket.go`, `tnonblocking_socket.go`.
-/

namespace Thrift

/-- The network as seen by a socket: `κ` identifies connections, `ν` is the
state of everything outside.  `dial` is `net.Dial`/`net.DialTimeout`, the others
are the methods of `net.Conn`.  Nothing is assumed about their answers.
Simplification: deadlines (`pushDeadline`, tsocket.go:107-119) are part of the
network's freedom to answer with an error at any time. -/
structure Net (κ ν : Type) where
  dial : Bytes → Bytes → ν → Except Err κ × ν
  read : κ → Nat → ν → (Bytes × GoErr) × ν
  write : κ → Bytes → ν → (Nat × GoErr) × ν
  close : κ → ν → GoErr × ν
  /-- Whether the connection has a `Flush` method (`Flusher`), used by the
  non-blocking socket only; `none` when it has not. -/
  flush : Option (κ → ν → GoErr × ν)

/-- Fields of `TSocket`, tsocket.go:32-46: the connection (`none` is nil), the
address as network name and address text (`none` is nil) and the unread contents
of the write buffer. -/
structure Sock (κ : Type) where
  conn : Option κ
  addr : Option (Bytes × Bytes)
  writeBuffer : Bytes
  deriving DecidableEq, Repr

/-- `NewTSocket`, tsocket.go:92-95. -/
def Sock.new (addr : Option (Bytes × Bytes)) : Sock κ := ⟨none, addr, []⟩

/-- `NewTSocketConnTimeout`, tsocket.go:64-71; `remote` and `self` are the answers of
`RemoteAddr` and `LocalAddr` (`none` is nil). -/
def Sock.ofConn (c : κ) (remote self : Option (Bytes × Bytes)) : Sock κ := ⟨some c, remote.or self, []⟩

/-- `NewTNonblockingSocketConn`, tnonblocking_socket.go:59-62. -/
def Sock.nbOfConn (c : κ) (remote : Option (Bytes × Bytes)) : Sock κ := ⟨some c, remote, []⟩

/-- `IsOpen`, tsocket.go:131-136; also `Peek` L207-209. -/
def Sock.isOpen (s : Sock κ) : Bool := s.conn.isSome

/-- The error of calls on a closed socket, tsocket.go:187, 200, 213. -/
def notOpenErr : Err := newTTransportException NOT_OPEN (ascii "Connection not open")
/-- tsocket.go:143. -/
def alreadyOpenErr : Err := newTTransportException ALREADY_OPEN (ascii "Socket already connected.")

/-- `Open`, tsocket.go:141-167; the same code in tnonblocking_socket.go:108-128.
A failing `Dial` answers a nil connection. -/
def Sock.open (N : Net κ ν) (s : Sock κ) (n : ν) : GoErr × Sock κ × ν :=
  if s.isOpen then (some alreadyOpenErr, s, n)
  else match s.addr with
    | none => (some (newTTransportException NOT_OPEN (ascii "Cannot open nil address.")), s, n)
    | some (network, text) =>
      if network.length = 0 then (some (newTTransportException NOT_OPEN (ascii "Cannot open bad network name.")), s, n)
      else if text.length = 0 then (some (newTTransportException NOT_OPEN (ascii "Cannot open bad address.")), s, n)
      else match N.dial network text n with
        | (.ok c, n') => (none, { s with conn := some c }, n')
        | (.error e, n') => (some (newTTransportException NOT_OPEN e.msg), { s with conn := none }, n')

/-- `Close`, tsocket.go:172-183, tnonblocking_socket.go:185-194. -/
def Sock.close (N : Net κ ν) (s : Sock κ) (n : ν) : GoErr × Sock κ × ν :=
  match s.conn with
  | none => (none, s, n)
  | some c =>
    match N.close c n with
    | (some e, n') => (some e, s, n')
    | (none, n') => (none, { s with conn := none }, n')

/-- `Interrupt`, tsocket.go:219-225: closes the connection but keeps it. -/
def Sock.interrupt (N : Net κ ν) (s : Sock κ) (n : ν) : GoErr × Sock κ × ν :=
  match s.conn with
  | none => (none, s, n)
  | some c => let (e, n') := N.close c n; (e, s, n')

/-- `Read`, tsocket.go:185-192, tnonblocking_socket.go:133-140. -/
def Sock.read (N : Net κ ν) (k : Nat) (s : Sock κ) (n : ν) : (Bytes × GoErr) × Sock κ × ν :=
  match s.conn with
  | none => (([], some notOpenErr), s, n)
  | some c => let ((bs, e), n') := N.read c k n; ((bs, transportFromOsError e), s, n')

/-- `Write`, tsocket.go:198-205. -/
def Sock.write (bs : Bytes) (s : Sock κ) : (Nat × GoErr) × Sock κ :=
  match s.conn with
  | none => ((0, some notOpenErr), s)
  | some _ => ((bs.length, none), { s with writeBuffer := s.writeBuffer ++ bs })

/-- `Flush`, tsocket.go:211-217, with `bytes.Buffer.WriteTo`: one `Write` of the
contents unless empty; a count beyond the length panics; the accepted part is
dropped; a short write without error becomes `io.ErrShortWrite`. -/
def Sock.flush (N : Net κ ν) (s : Sock κ) (n : ν) : Res GoErr × Sock κ × ν :=
  match s.conn with
  | none => (.ok (some notOpenErr), s, n)
  | some c =>
    if s.writeBuffer.length = 0 then (.ok none, s, n)
    else
      let ((m, e), n') := N.write c s.writeBuffer n
      if m > s.writeBuffer.length then (.panic, s, n')
      else
        let s' := { s with writeBuffer := s.writeBuffer.drop m }
        if e.isSome then (.ok (transportFromOsError e), s', n')
        else if m ≠ s.writeBuffer.length then (.ok (transportFromOsError (some ⟨.other, 0, ascii "short write"⟩)), s', n')
        else (.ok none, s', n')

/-- `TNonblockingSocket.Write`, tnonblocking_socket.go:149-155: straight to the
connection, the error as it is. -/
def Sock.nbWrite (N : Net κ ν) (bs : Bytes) (s : Sock κ) (n : ν) : (Nat × GoErr) × Sock κ × ν :=
  match s.conn with
  | none => ((0, some notOpenErr), s, n)
  | some c => let (x, n') := N.write c bs n; (x, s, n')

/-- `TNonblockingSocket.Flush`, tnonblocking_socket.go:160-172. -/
def Sock.nbFlush (N : Net κ ν) (s : Sock κ) (n : ν) : GoErr × Sock κ × ν :=
  match s.conn with
  | none => (some notOpenErr, s, n)
  | some c =>
    match N.flush with
    | none => (none, s, n)
    | some f => let (e, n') := f c n; (transportFromOsError e, s, n')

/-- `TNonblockingSocket.Interrupt`, tnonblocking_socket.go:196-202. -/
def Sock.nbInterrupt (N : Net κ ν) (s : Sock κ) (n : ν) : GoErr × Sock κ × ν :=
  if s.isOpen then s.close N n else (none, s, n)

/-- `TSocket` as a transport. -/
def socket (N : Net κ ν) : Transport (Sock κ × ν) where
  read k s := let (x, s', n') := s.1.read N k s.2; (.ok x, (s', n'))
  write bs s := let (x, s') := s.1.write bs; (.ok x, (s', s.2))
  flush s := let (x, s', n') := s.1.flush N s.2; (x, (s', n'))

/-- `TNonblockingSocket` as a transport (`writeBuffer` is not used). -/
def nonblockingSocket (N : Net κ ν) : Transport (Sock κ × ν) where
  read k s := let (x, s', n') := s.1.read N k s.2; (.ok x, (s', n'))
  write bs s := let (x, s', n') := s.1.nbWrite N bs s.2; (.ok x, (s', n'))
  flush s := let (x, s', n') := s.1.nbFlush N s.2; (.ok x, (s', n'))

end Thrift
