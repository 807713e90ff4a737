import Verif.Model.Exceptions
/-!
# Transports: memory buffer, framed transport

`tmemory_buffer.go`, `tframed_transport.go`.
-/

namespace Thrift

/-- `bytes.Buffer.Read` into a buffer of length `n`: an empty buffer answers
`io.EOF` unless `n` is zero. -/
def bufferRead (n : Nat) (b : Bytes) : (Bytes × GoErr) × Bytes :=
  if b = [] then (([], if n = 0 then none else some ioEOF), [])
  else ((b.take n, none), b.drop n)

/-- `TMemoryBuffer`, tmemory_buffer.go:31-126; its state is the unread part of
the `bytes.Buffer`.  `Read` L80-82, `Write` L96-98, `Flush` L108-110. -/
def memory : Transport Bytes where
  read n b := let (x, b') := bufferRead n b; (.ok x, b')
  write bs b := (.ok (bs.length, none), b ++ bs)
  flush b := (.ok none, b)

/-- `TMemoryBuffer.Close` and `Reset`, tmemory_buffer.go:75-78, 112-114. -/
def memoryClose (_ : Bytes) : Bytes := []

/-- Fields of `TFramedTransport`, tframed_transport.go:27-31; both
`bytes.Buffer`s by their unread contents. -/
structure Framed where
  writeBuffer : Bytes
  readBuffer : Bytes
  deriving DecidableEq, Repr

/-- `NewTFramedTransport`, tframed_transport.go:45-49. -/
def Framed.new : Framed := ⟨[], []⟩

/-- Big-endian `uint32`, as `binary.BigEndian.PutUint32`. -/
def putUint32BE (v : BitVec 32) : Bytes :=
  [(v >>> 24).setWidth 8, (v >>> 16).setWidth 8, (v >>> 8).setWidth 8, v.setWidth 8]

/-- `binary.BigEndian.Uint32` on the first four bytes of a buffer. -/
def uint32BE : Bytes → BitVec 32
  | a :: b :: c :: d :: _ =>
    d.setWidth 32 ||| c.setWidth 32 <<< 8 ||| b.setWidth 32 <<< 16 ||| a.setWidth 32 <<< 24
  | _ => 0

/-- `TFramedTransport.readFrame`, tframed_transport.go:110-131.  `int` has 64
bits, so `int(uint32)` is never negative and the branch L117-120 is dead. -/
def framedReadFrame : P Framed (Nat × GoErr) := do
  let hdr ← P.readAll 4
  if hdr.err.isSome then return (0, hdr.err)
  let size := (uint32BE hdr.buf).toNat
  if size = 0 then return (0, none)
  let body ← P.readAll size
  if body.err.isSome then return (body.n, body.err)
  P.modify fun s => { s with readBuffer := body.buf }
  return (size, none)

/-- `readBuffer.Read(buf)` as used in `TFramedTransport.Read`. -/
def framedBufferRead (n : Nat) : P Framed (Bytes × GoErr) := fun s =>
  let (x, b) := bufferRead n s.readBuffer
  .ret (x, { s with readBuffer := b })

/-- `TFramedTransport.Read`, tframed_transport.go:67-80.  The result of
`readFrame` is ignored, as in the code. -/
def framedRead (n : Nat) : P Framed (Bytes × GoErr) := do
  let s ← P.get
  if s.readBuffer.length > 0 then
    let (got, err) ← framedBufferRead n
    if got.length > 0 then return (got, transportFromOsError err)
  let _ ← framedReadFrame
  let (got, err) ← framedBufferRead n
  return (got, transportFromOsError err)

/-- `TFramedTransport.Write`, tframed_transport.go:86-89. -/
def framedWrite (bs : Bytes) : P Framed (Nat × GoErr) := do
  P.modify fun s => { s with writeBuffer := s.writeBuffer ++ bs }
  return (bs.length, none)

/-- `bytes.Buffer.WriteTo`: one `Write` of the whole contents; the accepted
part is dropped from the buffer; a short write without error becomes
`io.ErrShortWrite`. -/
def framedWriteTo : P Framed (Nat × GoErr) := do
  let s ← P.get
  let (m, e) ← P.write s.writeBuffer
  P.modify fun s => { s with writeBuffer := s.writeBuffer.drop m }
  if e.isSome then return (m, e)
  if m ≠ s.writeBuffer.length then return (m, some ⟨.other, 0, ascii "short write"⟩)
  return (m, none)

/-- `TFramedTransport.Flush`, tframed_transport.go:91-108. -/
def framedFlush : P Framed GoErr := do
  let s ← P.get
  let size := s.writeBuffer.length
  let (_, err) ← P.write (putUint32BE (BitVec.ofNat 32 size))
  if err.isSome then return transportFromOsError err
  if size > 0 then
    let (_, err) ← framedWriteTo
    if err.isSome then return transportFromOsError err
  let err ← P.tflush
  return transportFromOsError err

/-- `TFramedTransport`, tframed_transport.go:27-131. -/
def framed : Layer Framed where
  read := framedRead
  write := framedWrite
  flush := framedFlush

end Thrift
