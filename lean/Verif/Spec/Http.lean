import Verif.Model.Http
import Verif.Spec.Socket
import Verif.Spec.Service
/-!
# Histories of HTTP client calls, and HTTP servers
-/

namespace Thrift

/-- One call on a `THttpClient`. -/
def SOp.runHttp (W : Web ρ ν) : SOp → Http ρ → ν → SAns × Http ρ × ν
  | .open, s, n => (.opened s.opened, s, n)
  | .close, s, n => let (e, x) := s.close W n; (.closed e, x)
  | .read k, s, n => let ((bs, e), n) := s.read W k n; (.got bs e, s, n)
  | .write bs, s, n =>
    match s.write bs with
    | (.ok (m, e), s) => (.wrote m e, s, n)
    | (_, s) => (.panicked, s, n)
  | .flush, s, n =>
    match s.flush W n with
    | (.ok e, x) => (.flushed e, x)
    | (_, x) => (.panicked, x)

/-- A history of calls, with the answers. -/
def runHttp (W : Web ρ ν) : List SOp → Http ρ → ν → List (SOp × SAns) × Http ρ × ν
  | [], s, n => ([], s, n)
  | op :: ops, s, n =>
    let (a, s, n) := op.runHttp W s n
    let (h, x) := runHttp W ops s n
    ((op, a) :: h, x)

/-- The same web with a list of the requests posted, in order. -/
def Web.recorded (W : Web ρ ν) : Web ρ (ν × List Bytes) where
  get n := ((W.get n.1).1, ((W.get n.1).2, n.2))
  post b n := ((W.post b n.1).1, ((W.post b n.1).2, n.2 ++ [b]))
  readBody k r n := ((W.readBody k r n.1).1, ((W.readBody k r n.1).2, n.2))
  closeBody r n := ((W.closeBody r n.1).1, ((W.closeBody r n.1).2, n.2))

/-- The same web with a list of the responses handed over and not yet closed. -/
def Web.counted [DecidableEq ρ] (W : Web ρ ν) : Web ρ (ν × List ρ) where
  get n := ((W.get n.1).1, ((W.get n.1).2, match (W.get n.1).1 with
    | .ok r => r :: n.2
    | .error _ => n.2))
  post b n := ((W.post b n.1).1, ((W.post b n.1).2, match (W.post b n.1).1.2 with
    | .ok (_, r) => r :: n.2
    | .error _ => n.2))
  readBody k r n := ((W.readBody k r n.1).1, ((W.readBody k r n.1).2, n.2))
  closeBody r n := ((W.closeBody r n.1).1, ((W.closeBody r n.1).2, n.2.erase r))

/-- The requests that a history of calls should send: what was written since the
flush before. -/
def requestsOf : Bytes → List SOp → List Bytes
  | _, [] => []
  | b, .write bs :: ops => requestsOf (b ++ bs) ops
  | b, .flush :: ops => b :: requestsOf [] ops
  | b, _ :: ops => requestsOf b ops

/-- A web site that serves a service over HTTP: it takes the whole request, runs
`Process` on it with new protocol objects, and answers what was written, whatever
`Process` returned.  `rest r n` is what is still to be read of response `r`, and
`handler n` is the state of the handler.  Responses come in pieces of any size. -/
structure Site (W : Web ρ ν) (rest : ρ → ν → Bytes) (handler : ν → η) (i : ι) (o : ω) (proc : P (Server ι ω η) (Bool × GoErr)) : Prop where
  post : ∀ b n a x t, proc.run duplex ⟨i, o, handler n⟩ (b, []) = (.ok (a, x), t) →
    ∃ r n', W.post b n = ((b.length, .ok (200, r)), n') ∧ rest r n' = t.2 ∧ handler n' = x.handler
  read_some : ∀ k r n, 0 < k → rest r n ≠ [] → ∃ j n', 0 < j ∧ j ≤ k ∧ j ≤ (rest r n).length ∧
    W.readBody k r n = (((rest r n).take j, none), n') ∧ rest r n' = (rest r n).drop j
  read_end : ∀ k r n, 0 < k → rest r n = [] → ∃ e n',
    W.readBody k r n = (([], some e), n') ∧ rest r n' = []
  read_handler : ∀ k r n, handler (W.readBody k r n).2 = handler n

end Thrift
