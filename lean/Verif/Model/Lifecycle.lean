import Verif.Model.Socket
import Verif.Model.IOStream
import Verif.Model.Http
/-!
# Opening and closing, for every transport
-/

namespace Thrift

/-- All of `TTransport`, ttransport.go:36-83: with `IsOpen`, `Open` and `Close`. -/
structure Life (σ : Type) where
  io : Transport σ
  isOpen : σ → Bool
  opens : σ → GoErr × σ
  closes : σ → GoErr × σ

/-- `TSocket`, tsocket.go. -/
def socketLife (N : Net κ ν) : Life (Sock κ × ν) where
  io := socket N
  isOpen s := s.1.isOpen
  opens s := s.1.open N s.2
  closes s := s.1.close N s.2

/-- `TNonblockingSocket`, tnonblocking_socket.go. -/
def nonblockingLife (N : Net κ ν) : Life (Sock κ × ν) where
  io := nonblockingSocket N
  isOpen s := s.1.isOpen
  opens s := s.1.open N s.2
  closes s := s.1.close N s.2

/-- `TIOStreamTransport`: `Open`, tiostream_transport.go:146-148, does nothing. -/
def streamLife (N : Streams ν) : Life (IOStream × ν) where
  io := ioStream N
  isOpen s := s.1.isOpen
  opens s := (none, s)
  closes s := s.1.close N s.2

/-- `THttpClient`, thttp_client.go. -/
def httpLife (W : Web ρ ν) : Life (Http ρ × ν) where
  io := http W
  isOpen s := s.1.isOpen
  opens s := (s.1.opened, s)
  closes s := s.1.close W s.2

/-- `TMemoryBuffer`: `IsOpen`, `Open`, `Close`, tmemory_buffer.go:63-78. -/
def memoryLife : Life Bytes where
  io := memory
  isOpen _ := true
  opens b := (none, b)
  closes b := (none, memoryClose b)

/-- `TFramedTransport`: `Open`, `IsOpen`, `Close`, tframed_transport.go:51-65, ask the
transport inside; the buffers stay as they are. -/
def framedLife (L : Life σ) : Life (Framed × σ) where
  io := framed.over L.io
  isOpen s := L.isOpen s.2
  opens s := ((L.opens s.2).1, (s.1, (L.opens s.2).2))
  closes s := ((L.closes s.2).1, (s.1, (L.closes s.2).2))

/-! ## Factories

What `GetTransport` answers for a transport of the factory's own kind; the answer is
a new object that lives beside the given one. -/

/-- `tTransportFactory`, ttransport_factory.go:41-43: the given object. -/
def defaultFactory (t : σ) : σ := t

/-- `TMemoryBufferTransportFactory`, tmemory_buffer.go:40-48: a new, empty buffer. -/
def memoryFactory (_ : Bytes) : Bytes := []

/-- `TNonblockingSocketTransportFactory`, tnonblocking_socket.go:43-53: a new socket
for the address of the given one. -/
def nonblockingFactory (s : Sock κ) : Sock κ := Sock.new s.addr

/-- `tFramedTransportFactory`, tframed_transport.go:41-49: a new framed transport around
what the inner factory answers. -/
def framedFactory (inner : σ → σ) (t : σ) : Framed × σ := (Framed.new, inner t)

/-- `TIOStreamTransportFactory`, tiostream_transport.go:46-80, for a stream transport:
made from the streams of the given one.  (`bufio.NewReader` and `bufio.NewWriter` of
something buffered answer the same object.)  The type assertion of a nil `Reader`
panics. -/
def streamFactory (s : IOStream) : Res IOStream :=
  if s.isReadWriter then (if s.reader then .ok IOStream.newRW else .panic)
  else if s.reader && s.writer then .ok IOStream.newRAndW
  else if s.reader then .ok IOStream.newR
  else if s.writer then .ok IOStream.newW
  else .ok IOStream.newDefault

/-- `THttpClientTransportFactory`, thttp_client.go:42-60, for a client for POST
requests: a new one. -/
def httpPostFactory (s : Http ρ) : Option (Http ρ) := s.request.map fun _ => Http.newPost

end Thrift
