import Verif.Model.NonblockingServer
/-!
# What is expected of a server with one goroutine per connection
-/

namespace Thrift

/-- The connection that an event belongs to, after it was accepted. -/
def NbEvent.work : NbEvent → Option Nat
  | .made n _ _ | .processed n | .panicked n | .closedOut n | .closedIn n | .left n => some n
  | _ => none

/-- All that happens to connection `n`. -/
def NbEvent.about (n : Nat) (e : NbEvent) : Bool := decide (e = .accepted n) || decide (e.work = some n)

def NbEvent.isAccepted : NbEvent → Bool
  | .accepted _ => true
  | _ => false

/-- Steps of `Serve`. -/
def NbEvent.ofServe : NbEvent → Bool
  | .accepted _ | .returned _ | .serve => true
  | _ => false

/-- A connection that was served to its end: the transports are made, requests are
processed, and what was made is closed, each once and the output first. -/
def fullLife (n : Nat) (i o : Bool) (requests : Nat) : List NbEvent :=
  [.accepted n, .made n i o] ++ List.replicate (requests + 1) (.processed n) ++ (if o then [.closedOut n] else []) ++
    (if i then [.closedIn n] else []) ++ [.left n]

/-- The same with a panic in the last request; the program ends instead of the
connection. -/
def brokenLife (n : Nat) (i o : Bool) (requests : Nat) : List NbEvent :=
  [.accepted n, .made n i o] ++ List.replicate requests (.processed n) ++ [.panicked n] ++ (if o then [.closedOut n] else []) ++
    (if i then [.closedIn n] else [])

/-- The trace without the work on connection `n`. -/
def without (n : Nat) (ls : List NbEvent) : List NbEvent := ls.filter fun e => decide (e.work ≠ some n)

end Thrift
