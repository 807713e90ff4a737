import Verif.Model.Socket
/-!
# Timeouts of sockets

`SetTimeout` and `pushDeadline` of `tsocket.go` and `tnonblocking_socket.go`, over a
connection that takes time.
-/

namespace Thrift

/-- The other side of a connection: what it answers to a call and after how many
nanoseconds, or that it never does (`none`).  `ν` is the state of everything
outside. -/
structure Peer (ν : Type) where
  dial : Bytes → Bytes → ν → (Option Nat × Except Err Unit) × ν
  read : Nat → ν → (Option Nat × (Bytes × GoErr)) × ν
  write : Bytes → ν → (Option Nat × (Nat × GoErr)) × ν

/-- The clock in nanoseconds and the deadlines of the connection (`none` is Go's zero
time, no deadline).  Simplification: the clock does not overflow. -/
structure Wire (ν : Type) where
  now : Nat
  readBy : Option Nat
  writeBy : Option Nat
  out : ν

/-- `os.ErrDeadlineExceeded`. -/
def timedOut : Err := ⟨.other, 0, ascii "i/o timeout"⟩

/-- An operation of `net.Conn` that takes `delay` and must end at `by`: what it gives
and when it ends.  A deadline that has passed ends it at once; without a deadline
it may last for ever. -/
def await (by_ : Option Nat) (now : Nat) (delay : Option Nat) (answer late : α) : Res (α × Nat) :=
  match by_ with
  | none => match delay with
    | none => .stuck
    | some d => .ok (answer, now + d)
  | some t =>
    if t ≤ now then .ok (late, now)
    else match delay with
      | none => .ok (late, t)
      | some d => if now + d ≤ t then .ok (answer, now + d) else .ok (late, t)

/-- Fields of `TSocket`, tsocket.go:32-46, and `TNonblockingSocket`,
tnonblocking_socket.go:30-37, which has no write buffer; the connection is
described by the wire. -/
structure TSock where
  conn : Bool
  addr : Option (Bytes × Bytes)
  timeout : Int
  writeBuffer : Bytes
  deriving DecidableEq, Repr

namespace TSock

/-- `NewTSocket`, tsocket.go:92-95, `NewTNonblockingSocketAddrTimeout`,
tnonblocking_socket.go:69-72. -/
def new (addr : Option (Bytes × Bytes)) (timeout : Int) : TSock := ⟨false, addr, timeout, []⟩

/-- `SetTimeout`, tsocket.go:102-105, tnonblocking_socket.go:79-82. -/
def setTimeout (t : Int) (s : TSock) : TSock := { s with timeout := t }

/-- The time that `pushDeadline` sets, tsocket.go:107-111, tnonblocking_socket.go:84-88. -/
def deadline (s : TSock) (now : Nat) : Option Nat := if s.timeout > 0 then some (now + s.timeout.toNat) else none

/-- The checks of `Open` before it dials, tsocket.go:141-153,
tnonblocking_socket.go:108-121. -/
def refuses (s : TSock) : Option Err :=
  if s.conn then some alreadyOpenErr
  else match s.addr with
    | none => some (newTTransportException NOT_OPEN (ascii "Cannot open nil address."))
    | some (network, text) =>
      if network.length = 0 then some (newTTransportException NOT_OPEN (ascii "Cannot open bad network name."))
      else if text.length = 0 then some (newTTransportException NOT_OPEN (ascii "Cannot open bad address."))
      else none

/-- `Open` with a dial that must end at `by`; a new connection has no deadlines. -/
def openBy (N : Peer ν) (by_ : Option Nat) (s : TSock) (w : Wire ν) : Res GoErr × TSock × Wire ν :=
  match s.refuses with
  | some e => (.ok (some e), s, w)
  | none => match s.addr with
    | none => (.ok none, s, w)
    | some (network, text) =>
      let ((delay, a), n) := N.dial network text w.out
      match await by_ w.now delay a (.error timedOut) with
      | .ok (.ok (), t) => (.ok none, { s with conn := true }, ⟨t, none, none, n⟩)
      | .ok (.error e, t) => (.ok (some (newTTransportException NOT_OPEN e.msg)), { s with conn := false }, ⟨t, none, none, n⟩)
      | .panic => (.panic, s, { w with out := n })
      | .stuck => (.stuck, s, { w with out := n })

/-- `TSocket.Open`, tsocket.go:141-167: `net.DialTimeout` if there is a timeout. -/
def open' (N : Peer ν) (s : TSock) (w : Wire ν) : Res GoErr × TSock × Wire ν := s.openBy N (s.deadline w.now) w

/-- `TNonblockingSocket.Open`, tnonblocking_socket.go:108-128: `net.Dial`. -/
def nbOpen (N : Peer ν) (s : TSock) (w : Wire ν) : Res GoErr × TSock × Wire ν := s.openBy N none w

/-- `Read`, tsocket.go:185-192, tnonblocking_socket.go:133-140. -/
def read (N : Peer ν) (k : Nat) (s : TSock) (w : Wire ν) : Res (Bytes × GoErr) × TSock × Wire ν :=
  if !s.conn then (.ok ([], some notOpenErr), s, w)
  else
    let by_ := s.deadline w.now
    let ((delay, a), n) := N.read k w.out
    match await by_ w.now delay a ([], some timedOut) with
    | .ok ((bs, e), t) => (.ok (bs, transportFromOsError e), s, ⟨t, by_, w.writeBy, n⟩)
    | .panic => (.panic, s, ⟨w.now, by_, w.writeBy, n⟩)
    | .stuck => (.stuck, s, ⟨w.now, by_, w.writeBy, n⟩)

/-- A write to the connection.  Simplification: when the deadline passes, nothing has
been written. -/
def send (N : Peer ν) (bs : Bytes) (w : Wire ν) : Res (Nat × GoErr) × Wire ν :=
  let ((delay, a), n) := N.write bs w.out
  match await w.writeBy w.now delay a (0, some timedOut) with
  | .ok (x, t) => (.ok x, { w with now := t, out := n })
  | .panic => (.panic, { w with out := n })
  | .stuck => (.stuck, { w with out := n })

/-- `TSocket.Write`, tsocket.go:198-205. -/
def write (bs : Bytes) (s : TSock) (w : Wire ν) : (Nat × GoErr) × TSock × Wire ν :=
  if !s.conn then ((0, some notOpenErr), s, w)
  else ((bs.length, none), { s with writeBuffer := s.writeBuffer ++ bs }, { w with writeBy := s.deadline w.now })

/-- `TSocket.Flush`, tsocket.go:211-217, as `Sock.flush`. -/
def flush (N : Peer ν) (s : TSock) (w : Wire ν) : Res GoErr × TSock × Wire ν :=
  if !s.conn then (.ok (some notOpenErr), s, w)
  else if s.writeBuffer.length = 0 then (.ok none, s, w)
  else match send N s.writeBuffer w with
    | (.ok (m, e), w') =>
      if m > s.writeBuffer.length then (.panic, s, w')
      else
        let s' := { s with writeBuffer := s.writeBuffer.drop m }
        if e.isSome then (.ok (transportFromOsError e), s', w')
        else if m ≠ s.writeBuffer.length then (.ok (transportFromOsError (some ⟨.other, 0, ascii "short write"⟩)), s', w')
        else (.ok none, s', w')
    | (.panic, w') => (.panic, s, w')
    | (.stuck, w') => (.stuck, s, w')

/-- `TNonblockingSocket.Write`, tnonblocking_socket.go:149-155. -/
def nbWrite (N : Peer ν) (bs : Bytes) (s : TSock) (w : Wire ν) : Res (Nat × GoErr) × TSock × Wire ν :=
  if !s.conn then (.ok (0, some notOpenErr), s, w)
  else match send N bs { w with writeBy := s.deadline w.now } with
    | (x, w') => (x, s, w')

end TSock

/-- The time that passes between calls. -/
def Wire.wait (d : Nat) (w : Wire ν) : Wire ν := { w with now := w.now + d }

end Thrift
