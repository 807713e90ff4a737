import Verif.Model.IOStream
/-!
# Buffered stream transports

`NewTIOStreamTransportR`, `…W` and `…RAndW` put a `bufio.Reader` and a
`bufio.Writer` of the Go library in front of the streams they are given.
-/

namespace Thrift

/-- The streams that a transport is made of: an `io.Reader` and an `io.Writer`, which
may have `Close` methods.  `ν` is their state. -/
structure StreamEnds (ν : Type) where
  read : Nat → ν → (Bytes × GoErr) × ν
  write : Bytes → ν → (Nat × GoErr) × ν
  closeR : Option (ν → GoErr × ν)
  closeW : Option (ν → GoErr × ν)

/-- The buffers of a `bufio.Reader` and a `bufio.Writer`: what is not yet read, the
error to report after it, what is not yet written, the error that ends writing. -/
structure Bufio where
  rbuf : Bytes
  rerr : GoErr
  wbuf : Bytes
  werr : GoErr
  deriving DecidableEq, Repr

namespace Bufio

/-- `defaultBufSize` of the package `bufio`. -/
def size : Nat := 4096

def new : Bufio := ⟨[], none, [], none⟩

/-- `(*bufio.Reader).Read`: from the buffer if it holds anything; otherwise one read of
the stream, into the buffer or, for long reads, past it. -/
def read (E : StreamEnds ν) (k : Nat) (b : Bufio) (n : ν) : (Bytes × GoErr) × Bufio × ν :=
  if k = 0 then
    if b.rbuf.length > 0 then (([], none), b, n) else (([], b.rerr), { b with rerr := none }, n)
  else if b.rbuf.length > 0 then ((b.rbuf.take k, none), { b with rbuf := b.rbuf.drop k }, n)
  else if b.rerr.isSome then (([], b.rerr), { b with rerr := none }, n)
  else if k ≥ size then
    let (a, n) := E.read k n
    (a, b, n)
  else
    let ((bs, e), n) := E.read size n
    if bs.length = 0 then (([], e), b, n)
    else ((bs.take k, none), { b with rbuf := bs.drop k, rerr := e }, n)

/-- `(*bufio.Writer).Flush`. -/
def flush (E : StreamEnds ν) (b : Bufio) (n : ν) : GoErr × Bufio × ν :=
  if b.werr.isSome then (b.werr, b, n)
  else if b.wbuf.length = 0 then (none, b, n)
  else
    let ((m, e), n) := E.write b.wbuf n
    let e := if m < b.wbuf.length ∧ e = none then some ⟨.other, 0, ascii "short write"⟩ else e
    if e.isSome then (e, { b with wbuf := b.wbuf.drop m, werr := e }, n)
    else (none, { b with wbuf := [] }, n)

/-- A write past the empty buffer. -/
def direct (E : StreamEnds ν) (bs : Bytes) (b : Bufio) (n : ν) : (Nat × GoErr) × Bufio × ν :=
  let ((m, e), n) := E.write bs n
  ((m, e), { b with werr := e }, n)

/-- `(*bufio.Writer).Write`: into the buffer if there is room; otherwise what fits goes
into the buffer, which is flushed, and the rest, if it is longer than the buffer,
goes past it.  Simplification: the stream keeps the contract of `io.Writer`, so
that the loop of the Go code ends after these steps. -/
def write (E : StreamEnds ν) (bs : Bytes) (b : Bufio) (n : ν) : (Nat × GoErr) × Bufio × ν :=
  if b.werr.isSome then ((0, b.werr), b, n)
  else if bs.length ≤ size - b.wbuf.length then ((bs.length, none), { b with wbuf := b.wbuf ++ bs }, n)
  else if b.wbuf.length = 0 then direct E bs b n
  else
    let room := size - b.wbuf.length
    match flush E { b with wbuf := b.wbuf ++ bs.take room } n with
    | (some e, b, n) => ((room, some e), b, n)
    | (none, b, n) =>
      if (bs.drop room).length ≤ size then ((bs.length, none), { b with wbuf := bs.drop room }, n)
      else
        let ((m, e), x) := direct E (bs.drop room) b n
        ((room + m, e), x)

end Bufio

/-- The objects in `Reader` and `Writer` after `NewTIOStreamTransportR`, `…W` or
`…RAndW`, tiostream_transport.go:97-118.  Neither has a `Close` method; the
writer has a `Flush` method. -/
def buffered (E : StreamEnds ν) : Streams (Bufio × ν) where
  readR k x := x.1.read E k x.2
  writeW bs x := x.1.write E bs x.2
  closeR := none
  closeW := none
  flushW := some fun x => x.1.flush E x.2

/-- The object in `Reader` and `Writer` after `NewTIOStreamTransportRW`,
tiostream_transport.go:126-131: the stream itself, which has no `Flush` method.  One
`Close` method serves for both. -/
def unbuffered (E : StreamEnds ν) : Streams ν where
  readR := E.read
  writeW := E.write
  closeR := E.closeR
  closeW := E.closeR
  flushW := none

end Thrift
