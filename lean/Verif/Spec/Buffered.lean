import Verif.Spec.Socket
import Verif.Model.Buffered
/-!
# Histories of stream transports
-/

namespace Thrift

/-- One call on a `TIOStreamTransport`. -/
def SOp.runStream (N : Streams ν) : SOp → IOStream → ν → SAns × IOStream × ν
  | .open, s, n => (.opened none, s, n)
  | .close, s, n => let (e, x) := s.close N n; (.closed e, x)
  | .read k, s, n => let ((bs, e), n) := s.read N k n; (.got bs e, s, n)
  | .write bs, s, n =>
    match s.write N bs n with
    | (.ok (m, e), n) => (.wrote m e, s, n)
    | (_, n) => (.panicked, s, n)
  | .flush, s, n => let (e, n) := s.flush N n; (.flushed e, s, n)

/-- A history of calls, with the answers. -/
def runStream (N : Streams ν) : List SOp → IOStream → ν → List (SOp × SAns) × IOStream × ν
  | [], s, n => ([], s, n)
  | op :: ops, s, n =>
    let (a, s, n) := op.runStream N s n
    let (h, x) := runStream N ops s n
    ((op, a) :: h, x)

/-- What the streams saw: the bytes that were read from them, the bytes they
accepted, and how often they were closed. -/
structure Seen where
  read : Bytes
  written : Bytes
  closedR : Nat
  closedW : Nat
  deriving DecidableEq, Repr

/-- The streams with a record of what they see. -/
def StreamEnds.logged (E : StreamEnds ν) : StreamEnds (ν × Seen) where
  read k x := let (a, n) := E.read k x.1; (a, (n, { x.2 with read := x.2.read ++ a.1 }))
  write bs x := let (a, n) := E.write bs x.1; (a, (n, { x.2 with written := x.2.written ++ bs.take a.1 }))
  closeR := E.closeR.map fun f x => let (e, n) := f x.1; (e, (n, { x.2 with closedR := x.2.closedR + 1 }))
  closeW := E.closeW.map fun f x => let (e, n) := f x.1; (e, (n, { x.2 with closedW := x.2.closedW + 1 }))

/-- The contract of `io.Writer`: not more than it was given, and less only with an
error. -/
def StreamEnds.Honest (E : StreamEnds ν) : Prop :=
  ∀ bs n, (E.write bs n).1.1 ≤ bs.length ∧ ((E.write bs n).1.1 < bs.length → (E.write bs n).1.2 ≠ none)

/-- What the caller of `Write` was told is written. -/
def writtenBy : List (SOp × SAns) → Bytes
  | [] => []
  | (.write bs, .wrote m _) :: h => bs.take m ++ writtenBy h
  | _ :: h => writtenBy h

/-- What the caller of `Read` got. -/
def readBy : List (SOp × SAns) → Bytes
  | [] => []
  | (_, .got bs _) :: h => bs ++ readBy h
  | _ :: h => readBy h

end Thrift
