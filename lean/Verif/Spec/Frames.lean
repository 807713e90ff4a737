import Verif.Spec.Value
import Verif.Spec.Stream
/-!
# Frames and histories of transport calls

The framed wire format (a 4-byte big-endian length, then the payload), what a
peer makes of a byte string, and histories of transport calls.  Nothing here is
taken from the code.
-/

namespace Thrift

/-- One frame. -/
def frame (p : Bytes) : Bytes := be 4 p.length ++ p

/-- Frames one after the other. -/
def frames (ps : List Bytes) : Bytes := (ps.map frame).flatten

/-- A payload that fits in a frame. -/
def Fits (p : Bytes) : Prop := p.length < 2 ^ 32

/-- Big-endian value. -/
def ofBE (bs : Bytes) : Nat := bs.foldl (fun a b => a * 256 + b.toNat) 0

/-- The complete frames that a peer finds in the bytes it has received; `fuel`
bounds their number. -/
def peerFramesAux : (fuel : Nat) → Bytes → List Bytes
  | 0, _ => []
  | fuel + 1, w =>
    if 4 + ofBE (w.take 4) ≤ w.length then
      (w.drop 4).take (ofBE (w.take 4)) :: peerFramesAux fuel (w.drop (4 + ofBE (w.take 4)))
    else []

/-- The complete frames that a peer finds in the bytes it has received. -/
def peerFrames (w : Bytes) : List Bytes := peerFramesAux w.length w

/-- A call on a transport. -/
inductive TOp where
  | write (bs : Bytes)
  | read (n : Nat)
  | readAll (n : Nat)
  | flush
  deriving DecidableEq, Repr

/-- Its answer. -/
inductive TAns where
  | wrote (n : Nat) (e : GoErr)
  | got (bs : Bytes) (e : GoErr)
  | gotAll (r : ReadAllResult)
  | flushed (e : GoErr)
  deriving DecidableEq, Repr

/-- One call. -/
def TOp.run (T : Transport σ) : TOp → σ → Res TAns × σ
  | .write bs, s => let r := T.write bs s; (r.1.map fun x => .wrote x.1 x.2, r.2)
  | .read n, s => let r := T.read n s; (r.1.map fun x => .got x.1 x.2, r.2)
  | .readAll n, s => let r := T.readAll n s; (r.1.map .gotAll, r.2)
  | .flush, s => let r := T.flush s; (r.1.map .flushed, r.2)

/-- A history of calls; it stops at a panic. -/
def runOps (T : Transport σ) : List TOp → σ → Res (List TAns) × σ
  | [], s => (.ok [], s)
  | op :: ops, s =>
    match op.run T s with
    | (.ok a, s') =>
      match runOps T ops s' with
      | (.ok as, s'') => (.ok (a :: as), s'')
      | (.panic, s'') => (.panic, s'')
      | (.stuck, s'') => (.stuck, s'')
    | (.panic, s') => (.panic, s')
    | (.stuck, s') => (.stuck, s')

/-- The bytes of all writes of a history. -/
def written : List TOp → Bytes
  | [] => []
  | .write bs :: r => bs ++ written r
  | _ :: r => written r

/-- The bytes that the answers report as read: for `ReadAll` the first `n` bytes
of the buffer, `n` being the reported count. -/
def delivered : List TAns → Bytes
  | [] => []
  | .got bs _ :: r => bs ++ delivered r
  | .gotAll x :: r => x.buf.take x.n ++ delivered r
  | _ :: r => delivered r

/-- What a framing transport has to put on the wire for a history, and what it
still has to hold back, starting with `pending` held back. -/
def framedOutput : (pending : Bytes) → List TOp → Bytes × Bytes
  | p, [] => ([], p)
  | p, .write bs :: r => framedOutput (p ++ bs) r
  | p, .flush :: r => (frame p ++ (framedOutput [] r).1, (framedOutput [] r).2)
  | p, _ :: r => framedOutput p r

/-- Every flush of the history has a payload that fits in a frame. -/
def flushesFit : (pending : Bytes) → List TOp → Prop
  | _, [] => True
  | p, .write bs :: r => flushesFit (p ++ bs) r
  | p, .flush :: r => Fits p ∧ flushesFit [] r
  | p, _ :: r => flushesFit p r

/-- A connection that accepts each write only up to a given number of bytes and
then reports an error, as told by its script (`none`: accepts everything, also
when the script has ended).  Its state is (bytes that reached the peer, rest of
the script). -/
def flaky : Transport (Bytes × List (Option Nat)) where
  read _ s := (.ok ([], some endOfStream), s)
  write bs s :=
    match s.2 with
    | some k :: r => (.ok ((bs.take k).length, some ⟨.other, 0, []⟩), (s.1 ++ bs.take k, r))
    | none :: r => (.ok (bs.length, none), (s.1 ++ bs, r))
    | [] => (.ok (bs.length, none), (s.1 ++ bs, []))
  flush s := (.ok none, s)

end Thrift
