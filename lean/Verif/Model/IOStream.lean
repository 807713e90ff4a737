import Verif.Model.Transport
/-!
# Stream transport

`tiostream_transport.go`.
-/

namespace Thrift

/-- The Go objects behind `Reader` and `Writer`; `ν` is the state of everything
outside.  Nothing is assumed about the answers.  `closeR`, `closeW` and `flushW`
are `none` when the object has no such method (the type assertions to `io.Closer`
and `Flusher` fail). -/
structure Streams (ν : Type) where
  readR : Nat → ν → (Bytes × GoErr) × ν
  writeW : Bytes → ν → (Nat × GoErr) × ν
  closeR : Option (ν → GoErr × ν)
  closeW : Option (ν → GoErr × ν)
  flushW : Option (ν → GoErr × ν)

/-- Fields of `TIOStreamTransport`, tiostream_transport.go:34-38: whether
`Reader` and `Writer` are non-nil, and `IsReadWriter`. -/
structure IOStream where
  reader : Bool
  writer : Bool
  isReadWriter : Bool
  deriving DecidableEq, Repr

namespace IOStream
/-! Constructors, tiostream_transport.go:88-131. -/
def newDefault : IOStream := ⟨false, false, false⟩
def newR : IOStream := ⟨true, false, false⟩
def newW : IOStream := ⟨false, true, false⟩
def newRAndW : IOStream := ⟨true, true, false⟩
def newRW : IOStream := ⟨true, true, true⟩

/-- `IsOpen`, `Peek`, tiostream_transport.go:139-152. -/
def isOpen (_ : IOStream) : Bool := true

/-- `Close`, tiostream_transport.go:157-181; close errors are only logged. -/
def close (N : Streams ν) (s : IOStream) (n : ν) : GoErr × IOStream × ν :=
  let (closedReader, n1) :=
    if s.reader then
      match N.closeR with
      | some f => (true, (f n).2)
      | none => (false, n)
    else (false, n)
  let s1 := { s with reader := false }
  if s.writer && (!closedReader || !s.isReadWriter) then
    let n2 := match N.closeW with
      | some f => (f n1).2
      | none => n1
    (none, { s1 with writer := false }, n2)
  else (none, s1, n1)

/-- `Read`, tiostream_transport.go:186-192. -/
def read (N : Streams ν) (k : Nat) (s : IOStream) (n : ν) : (Bytes × GoErr) × ν :=
  if s.reader then let ((bs, e), n') := N.readR k n; ((bs, transportFromOsError e), n')
  else (([], some (newTTransportException NOT_OPEN (ascii "Cannot read from null inputStream"))), n)

/-- `Write`, tiostream_transport.go:201-211.  When nothing was written and there
is no error, the log message calls `err.Error()` on nil, which panics. -/
def write (N : Streams ν) (bs : Bytes) (s : IOStream) (n : ν) : Res (Nat × GoErr) × ν :=
  if s.writer then
    let ((m, e), n') := N.writeW bs n
    if m = 0 ∧ e = none then (.panic, n') else (.ok (m, transportFromOsError e), n')
  else (.ok (0, some (newTTransportException NOT_OPEN (ascii "Cannot write to null outputStream"))), n)

/-- `Flush`, tiostream_transport.go:216-228. -/
def flush (N : Streams ν) (s : IOStream) (n : ν) : GoErr × ν :=
  if s.writer then
    match N.flushW with
    | some f => let (e, n') := f n; (transportFromOsError e, n')
    | none => (none, n)
  else (some (newTTransportException NOT_OPEN (ascii "Cannot flush null outputStream")), n)
end IOStream

/-- `TIOStreamTransport` as a transport. -/
def ioStream (N : Streams ν) : Transport (IOStream × ν) where
  read k s := let (x, n') := s.1.read N k s.2; (.ok x, (s.1, n'))
  write bs s := let (x, n') := s.1.write N bs s.2; (x, (s.1, n'))
  flush s := let (x, n') := s.1.flush N s.2; (.ok x, (s.1, n'))

/-- A `bytes.Buffer` as both streams (`NewTIOStreamTransportRW`): no `Close`, no
`Flush`. -/
def bufferStreams : Streams Bytes where
  readR := bufferRead
  writeW bs b := ((bs.length, none), b ++ bs)
  closeR := none
  closeW := none
  flushW := none

end Thrift
