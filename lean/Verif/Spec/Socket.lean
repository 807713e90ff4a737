import Verif.Model.Socket
/-!
# Histories of socket calls
-/

namespace Thrift

/-- A call on a socket transport. -/
inductive SOp where
  | open | close | read (n : Nat) | write (bs : Bytes) | flush
  deriving DecidableEq, Repr

/-- Its answer. -/
inductive SAns where
  | opened (e : GoErr)
  | closed (e : GoErr)
  | got (bs : Bytes) (e : GoErr)
  | wrote (n : Nat) (e : GoErr)
  | flushed (e : GoErr)
  | panicked
  deriving DecidableEq, Repr

/-- The answer's error. -/
def SAns.err : SAns → GoErr
  | .opened e | .closed e | .got _ e | .wrote _ e | .flushed e => e
  | .panicked => none

/-- One call on a `TSocket`. -/
def SOp.run (N : Net κ ν) : SOp → Sock κ → ν → SAns × Sock κ × ν
  | .open, s, n => let (e, x) := s.open N n; (.opened e, x)
  | .close, s, n => let (e, x) := s.close N n; (.closed e, x)
  | .read k, s, n => let ((bs, e), x) := s.read N k n; (.got bs e, x)
  | .write bs, s, n => let ((m, e), x) := s.write bs; (.wrote m e, x, n)
  | .flush, s, n =>
    match s.flush N n with
    | (.ok e, x) => (.flushed e, x)
    | (_, x) => (.panicked, x)

/-- One call on a `TNonblockingSocket`. -/
def SOp.runNb (N : Net κ ν) : SOp → Sock κ → ν → SAns × Sock κ × ν
  | .open, s, n => let (e, x) := s.open N n; (.opened e, x)
  | .close, s, n => let (e, x) := s.close N n; (.closed e, x)
  | .read k, s, n => let ((bs, e), x) := s.read N k n; (.got bs e, x)
  | .write bs, s, n => let ((m, e), x) := s.nbWrite N bs n; (.wrote m e, x)
  | .flush, s, n => let (e, x) := s.nbFlush N n; (.flushed e, x)

/-- A history of calls, with the answers. -/
def runSock (step : SOp → Sock κ → ν → SAns × Sock κ × ν) : List SOp → Sock κ → ν → List (SOp × SAns) × Sock κ × ν
  | [], s, n => ([], s, n)
  | op :: ops, s, n =>
    let (a, s1, n1) := step op s n
    let (h, x) := runSock step ops s1 n1
    ((op, a) :: h, x)

/-- Whether a socket with this history of calls should be open: a successful
`Open` opens, every `Close` closes. -/
def shouldBeOpen (start : Bool) : List (SOp × SAns) → Bool
  | [] => start
  | (.open, a) :: h => shouldBeOpen (start || a.err.isNone) h
  | (.close, _) :: h => shouldBeOpen false h
  | _ :: h => shouldBeOpen start h

/-- The same, where only a `Close` that reports success closes. -/
def openBySuccess (start : Bool) : List (SOp × SAns) → Bool
  | [] => start
  | (.open, a) :: h => openBySuccess (start || a.err.isNone) h
  | (.close, a) :: h => openBySuccess (start && a.err.isSome) h
  | _ :: h => openBySuccess start h

/-- What each call must do, given whether the socket is open: `Open` on an open
socket answers `ALREADY_OPEN`; `Read`, `Write` and `Flush` on a closed one answer
`NOT_OPEN` and move no data; `Close` on a closed one succeeds; in all these cases
nothing changes, neither the socket nor the outside. -/
def StepRule (isOpen : Bool) (op : SOp) (a : SAns) (unchanged : Prop) : Prop :=
  match op, isOpen with
  | .open, true => (∃ m, a = .opened (some ⟨.transport, 2, m⟩)) ∧ unchanged
  | .read _, false => (∃ m, a = .got [] (some ⟨.transport, 1, m⟩)) ∧ unchanged
  | .write _, false => (∃ m, a = .wrote 0 (some ⟨.transport, 1, m⟩)) ∧ unchanged
  | .flush, false => (∃ m, a = .flushed (some ⟨.transport, 1, m⟩)) ∧ unchanged
  | .close, false => a = .closed none ∧ unchanged
  | _, _ => True

/-- A network that remembers every `Write` on a connection. -/
def Net.logged (N : Net κ ν) : Net κ (ν × List (κ × Bytes)) where
  dial a b s := let (x, n) := N.dial a b s.1; (x, (n, s.2))
  read c k s := let (x, n) := N.read c k s.1; (x, (n, s.2))
  write c bs s := let (x, n) := N.write c bs s.1; (x, (n, s.2 ++ [(c, bs)]))
  close c s := let (x, n) := N.close c s.1; (x, (n, s.2))
  flush := N.flush.map fun f c s => let (x, n) := f c s.1; (x, (n, s.2))

/-- What has been written by `Write` since the last successful `Open`. -/
def writtenSinceOpen (start : Bytes) : List (SOp × SAns) → Bytes
  | [] => start
  | (.open, .opened none) :: h => writtenSinceOpen [] h
  | (.write bs, .wrote _ none) :: h => writtenSinceOpen (start ++ bs) h
  | _ :: h => writtenSinceOpen start h

/-- A network on which everything succeeds; connections are numbered. -/
def goodNet : Net Nat Nat where
  dial _ _ n := (.ok n, n + 1)
  read _ _ n := (([], some ioEOF), n)
  write _ bs n := ((bs.length, none), n)
  close _ n := (none, n)
  flush := none

/-- A network on which `Close` of a connection fails. -/
def badCloseNet : Net Nat Nat := { goodNet with close := fun _ n => (some ⟨.other, 0, []⟩, n) }

end Thrift
