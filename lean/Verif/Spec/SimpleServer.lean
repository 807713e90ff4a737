import Verif.Model.SimpleServer
/-!
# What is expected of a server, in terms of what can be seen of it
-/

namespace Thrift

/-- Events that concern a connection. -/
def SrvEvent.ofConn : SrvEvent → Bool
  | .accepted _ _ _ | .processed _ | .closedOut _ | .closedIn _ => true
  | _ => false

/-- A connection is accepted. -/
def SrvEvent.isAccepted : SrvEvent → Bool
  | .accepted _ _ _ => true
  | _ => false

/-- The server ends. -/
def SrvEvent.isEnd : SrvEvent → Bool
  | .returned _ | .crashed => true
  | _ => false

/-- Steps of `Serve` other than calls of `Process`. -/
def SrvEvent.ofServe : SrvEvent → Bool
  | .processed _ | .stop | .stopReturned | .stopping => false
  | _ => true

/-- All that happens to one connection: it is accepted, requests are processed, and
its transports are closed, the output first. -/
def oneConnection (n : Nat) (i o : Bool) (requests : Nat) : List SrvEvent :=
  .accepted n i o :: List.replicate requests (.processed n) ++ (if o then [.closedOut n] else []) ++ (if i then [.closedIn n] else [])

/-- Connections `0` to `n - 1`, one after another. -/
inductive Sequential : Nat → List SrvEvent → Prop where
  | nil : Sequential 0 []
  | snoc {n tr} (i o requests) : Sequential n tr → Sequential (n + 1) (tr ++ oneConnection n i o (requests + 1))

/-- Whenever a connection is accepted or the server ends, all connections accepted
before have been served to the end, one after another. -/
def Orderly (ls : List SrvEvent) : Prop :=
  ∀ a l b, ls = a ++ l :: b → l.isAccepted = true ∨ l.isEnd = true → ∃ n, Sequential n (a.filter SrvEvent.ofConn)

/-- Once `Stop` has returned, nothing is accepted by a server that was running when
it was called. -/
def Stops (ls : List SrvEvent) : Prop :=
  ∀ a b, ls = a ++ .stopReturned :: b → (∃ a1 a2, a = a1 ++ .stop :: a2 ∧ .start ∈ a1) → ∀ l ∈ b, l.isAccepted = false

/-- A server that has called no processor does not panic. -/
def Calm (ls : List SrvEvent) : Prop := (∀ l ∈ ls, l.isAccepted = false) → .crashed ∉ ls

end Thrift
