/-!
# Go values, errors and I/O programs

The vocabulary shared by all model files.  Nothing here is taken from the
library itself; it fixes how Go notions are represented.
-/

namespace Thrift

/-- Go `byte`. -/
abbrev Byte := BitVec 8
/-- Go `[]byte`, and also Go `string`, which is a byte sequence. -/
abbrev Bytes := List Byte
/-- Go `int16`, `int32`, `int64`; signed readings go through `BitVec.toInt`. -/
abbrev I16 := BitVec 16
abbrev I32 := BitVec 32
abbrev I64 := BitVec 64
/-- Go `float64`, kept as its IEEE bit pattern.  Simplification:
`math.Float64bits` and `math.Float64frombits` are taken to be exact inverses,
which ignores platforms that quieten signalling NaNs when loading them. -/
abbrev F64 := BitVec 64

/-- The bytes of an ASCII string literal. -/
def ascii (s : String) : Bytes := s.toList.map fun c => BitVec.ofNat 8 c.toNat

/-- The dynamic type of a Go `error` value, as far as the library's type
assertions can tell them apart: `io.EOF`, `*tTransportException`
(ttransport_exception.go:43-46), `*tProtocolException`
(tprotocol_exception.go:44-47), `*tApplicationException`
(tapplication_exception.go:48-51), and any other error. -/
inductive ErrKind where
  | eof | transport | protocol | application | other
  deriving DecidableEq, Repr

/-- A non-nil Go error: dynamic type, `TypeId()` (0 where there is none) and
`Error()` text.  Simplification: texts are shortened to a fixed phrase where the
code formats numbers into them. -/
structure Err where
  kind : ErrKind
  code : Int
  msg : Bytes
  deriving DecidableEq, Repr

/-- A Go `error` result: `none` is `nil`. -/
abbrev GoErr := Option Err

/-- How a piece of Go code ends: normally, by a run-time panic, or (in the
model only) because the fuel of a `for {}` loop is used up. -/
inductive Res (α : Type) where
  | ok (a : α)
  | panic
  | stuck
  deriving DecidableEq, Repr

namespace Res
def map (f : α → β) : Res α → Res β
  | ok a => ok (f a)
  | panic => panic
  | stuck => stuck
end Res

/-- What `ReadAllTransport` hands back: the caller's buffer (always of the
requested size, zero where nothing arrived), the count and the error. -/
structure ReadAllResult where
  buf : Bytes
  n : Nat
  err : GoErr
  deriving DecidableEq, Repr

/-- A piece of Go code as a program over the calls it makes on a `TTransport`
(ttransport.go:37-101): `ReadAll` into a fresh buffer of length `n`, `Write`
and `Flush`.  (`Read` is called directly only by `ReadAllTransport` and by the
JSON protocols, which are modelled on `Transport.read`.) -/
inductive Prog (α : Type) : Type where
  | ret (a : α)
  | panic
  | stuck
  | readAll (n : Nat) (k : ReadAllResult → Prog α)
  | write (bs : Bytes) (k : Nat × GoErr → Prog α)
  | flush (k : GoErr → Prog α)

namespace Prog

def bind : Prog α → (α → Prog β) → Prog β
  | ret a, f => f a
  | panic, _ => panic
  | stuck, _ => stuck
  | readAll n k, f => readAll n fun x => (k x).bind f
  | write bs k, f => write bs fun x => (k x).bind f
  | flush k, f => flush fun x => (k x).bind f

instance : Monad Prog where
  pure := ret
  bind := bind

end Prog

/-- A `TTransport` implementation as a state machine over `σ`: the outcome of
each call and the new state.  `Read` answers the bytes it stored at the start
of a buffer of length `n`, and the error. -/
structure Transport (σ : Type) where
  read : Nat → σ → Res (Bytes × GoErr) × σ
  write : Bytes → σ → Res (Nat × GoErr) × σ
  flush : σ → Res GoErr × σ

/-- The caller's buffer of length `size` (freshly made, so zero filled) after
`got` has been stored at its start. -/
def fillBuf (size : Nat) (got : Bytes) : Bytes := got ++ List.replicate (size - got.length) 0

/-- The error that `ReadAllTransport` puts in place of whatever `Read` reported
with an empty result, ttransport.go:167.  Simplification: the numbers are left
out of the text. -/
def readAllErr : Err := ⟨.transport, 0, ascii "Cannot read. Remote side has closed."⟩

/-- The loop of `ReadAllTransport`, ttransport.go:160-174.  `got` are the bytes
stored so far, `err` the variable of that name.  `fuel` is the number of
iterations left; started with `size` it never runs out because an iteration that
continues has stored at least one byte. -/
def readAllLoop (rd : Nat → σ → Res (Bytes × GoErr) × σ) (size : Nat) :
    Nat → Bytes → GoErr → σ → Res ReadAllResult × σ
  | 0, got, err, s =>
    if got.length < size then (.stuck, s) else (.ok ⟨fillBuf size got, got.length, err⟩, s)
  | fuel + 1, got, err, s =>
    if got.length < size then
      match rd (size - got.length) s with
      | (.ok (bs, err'), s') =>
        if bs.length = 0 then
          (.ok ⟨fillBuf size got, 0, if err'.isSome then some readAllErr else none⟩, s')
        else readAllLoop rd size fuel (got ++ bs) err' s'
      | (.panic, s') => (.panic, s')
      | (.stuck, s') => (.stuck, s')
    else (.ok ⟨fillBuf size got, got.length, err⟩, s)

/-- `ReadAllTransport` with a fresh buffer of length `size`,
ttransport.go:160-174.  All transports use it as their `ReadAll`
(e.g. tmemory_buffer.go:84-86, tframed_transport.go:82-84, tsocket.go:194-196,
tiostream_transport.go:194-196). -/
def Transport.readAll (T : Transport σ) (size : Nat) (s : σ) : Res ReadAllResult × σ :=
  readAllLoop T.read size size [] none s

/-- Running a program on a transport. -/
def Prog.run (T : Transport σ) : Prog α → σ → Res α × σ
  | .ret a, s => (.ok a, s)
  | .panic, s => (.panic, s)
  | .stuck, s => (.stuck, s)
  | .readAll n k, s =>
    match T.readAll n s with
    | (.ok x, s') => (k x).run T s'
    | (.panic, s') => (.panic, s')
    | (.stuck, s') => (.stuck, s')
  | .write bs k, s =>
    match T.write bs s with
    | (.ok x, s') => (k x).run T s'
    | (.panic, s') => (.panic, s')
    | (.stuck, s') => (.stuck, s')
  | .flush k, s =>
    match T.flush s with
    | (.ok x, s') => (k x).run T s'
    | (.panic, s') => (.panic, s')
    | (.stuck, s') => (.stuck, s')

/-- Programs with an object state `π` (the fields of a protocol or transport
object) on top of transport calls. -/
def P (π α : Type) : Type := π → Prog (α × π)

namespace P
@[inline] def ret (a : α) : P π α := fun s => .ret (a, s)
@[inline] def bind (m : P π α) (f : α → P π β) : P π β := fun s => (m s).bind fun (a, s') => f a s'
instance : Monad (P π) where
  pure := ret
  bind := bind
/-- Read the object state. -/
def get : P π π := fun s => .ret (s, s)
/-- Change the object state. -/
def modify (f : π → π) : P π Unit := fun s => .ret ((), f s)
/-- A Go panic. -/
def panic : P π α := fun _ => .panic
/-- Fuel used up. -/
def stuck : P π α := fun _ => .stuck
/-- A call of the transport's `ReadAll`. -/
def readAll (n : Nat) : P π ReadAllResult := fun s => .readAll n fun x => .ret (x, s)
/-- A call of the transport's `Write`. -/
def write (bs : Bytes) : P π (Nat × GoErr) := fun s => .write bs fun x => .ret (x, s)
/-- A call of the transport's `Flush`. -/
def tflush : P π GoErr := fun s => .flush fun x => .ret (x, s)

/-- Run on a transport: outcome with new object state, and new transport state. -/
def run (T : Transport σ) (m : P π α) (s : π) (t : σ) : Res (α × π) × σ := (m s).run T t
end P

/-- A transport object wrapped around another transport (like
`TFramedTransport`): its methods are programs over the inner transport. -/
structure Layer (φ : Type) where
  read : Nat → P φ (Bytes × GoErr)
  write : Bytes → P φ (Nat × GoErr)
  flush : P φ GoErr

/-- Separate the object state from the result of a run. -/
def splitRes (d : φ) : Res (α × φ) × σ → Res α × (φ × σ)
  | (.ok (a, f), s) => (.ok a, (f, s))
  | (.panic, s) => (.panic, (d, s))
  | (.stuck, s) => (.stuck, (d, s))

/-- The wrapped transport is again a transport.  (After a panic the object
state is the one before the call; no theorem looks at it.) -/
def Layer.over (L : Layer φ) (T : Transport σ) : Transport (φ × σ) where
  read n s := splitRes s.1 ((L.read n).run T s.1 s.2)
  write bs s := splitRes s.1 ((L.write bs).run T s.1 s.2)
  flush s := splitRes s.1 (L.flush.run T s.1 s.2)

end Thrift
