/-!
# The simple server and its server socket

`TSimpleServer` (tsimple_server.go:113-161) on a `TServerSocket`
(tserver_socket.go:86-109, 169-190).  `Serve` runs in one goroutine and `Stop` is
called from another one, any number of times.  The two share the flag `stopped`
and the field `listener`, both without a lock.

Simplifications: memory is sequentially consistent and every access to a shared
field is one step; `Serve` is called once; calls of `Stop` do not overlap;
`TServerSocket.conn` is nil, as it is for every socket that listens; factories
do not panic.  What the network, the factories and the processor do is left open.
-/

namespace Thrift

/-- Where `Serve` stands. -/
inductive SrvPc where
  /-- Not yet called. -/
  | idle
  /-- At `Listen`, tsimple_server.go:115. -/
  | listen
  /-- At the loop condition, tsimple_server.go:119. -/
  | check
  /-- At the start of `Accept`, tserver_socket.go:96. -/
  | accept
  /-- At `Listen` within `Accept`, tserver_socket.go:97. -/
  | relisten
  /-- At the second look at the listener, tserver_socket.go:100. -/
  | recheck
  /-- Loading the listener, tserver_socket.go:104. -/
  | take
  /-- In the `Accept` of listener `l`, tserver_socket.go:104. -/
  | wait (l : Nat)
  /-- At `Process` for connection `n`, tsimple_server.go:150; whether there is an
  input and an output transport. -/
  | process (n : Nat) (i o : Bool)
  /-- At the deferred `Close` of the output transport, tsimple_server.go:147, in the
  course of a panic or not. -/
  | closeOut (n : Nat) (i o panicking : Bool)
  /-- At the deferred `Close` of the input transport, tsimple_server.go:144. -/
  | closeIn (n : Nat) (i panicking : Bool)
  /-- Returned, with an error or not. -/
  | returned (err : Bool)
  /-- Ended by a panic. -/
  | crashed
  deriving DecidableEq

/-- Where `Stop` stands. -/
inductive StopPc where
  /-- Not running. -/
  | idle
  /-- At `IsOpen` in `Close`, tserver_socket.go:170. -/
  | test
  /-- At `listener.Close()`, tserver_socket.go:171. -/
  | close (l : Nat)
  /-- At `listener = nil`, tserver_socket.go:175. -/
  | clear
  /-- At the return, tsimple_server.go:134. -/
  | done
  deriving DecidableEq

/-- The shared state: the flag (tsimple_server.go:27), the listener
(tserver_socket.go:34), the listeners closed so far, and the numbers of listeners
and connections made so far. -/
structure Srv where
  stopped : Bool
  pc : SrvPc
  stop : StopPc
  listener : Option Nat
  closed : List Nat
  listeners : Nat
  conns : Nat

/-- A new server, tsimple_server.go:79-87, with a new socket,
tserver_socket.go:81-84. -/
def Srv.new : Srv := ⟨false, .idle, .idle, none, [], 0, 0⟩

/-- What can be seen of a step. -/
inductive SrvEvent where
  /-- `Serve` is called and has reset the flag. -/
  | start
  /-- Connection `n` is accepted; the transports made for it. -/
  | accepted (n : Nat) (i o : Bool)
  /-- `Process` has returned or panicked on connection `n`. -/
  | processed (n : Nat)
  | closedOut (n : Nat)
  | closedIn (n : Nat)
  /-- `Serve` has returned. -/
  | returned (err : Bool)
  /-- `Serve` has panicked. -/
  | crashed
  /-- Any other step of `Serve`. -/
  | serve
  /-- `Stop` is called and has set the flag. -/
  | stop
  /-- `Stop` has returned. -/
  | stopReturned
  /-- Any other step of `Stop`. -/
  | stopping
  deriving DecidableEq

/-- The steps of the two goroutines. -/
inductive SrvStep : Srv → SrvEvent → Srv → Prop where
  /-- tsimple_server.go:114 -/
  | start (s) : s.pc = .idle → SrvStep s .start { s with stopped := false, pc := .listen }
  /-- tserver_socket.go:87, 92: there is a listener already. -/
  | listenOpen (s l) : s.pc = .listen → s.listener = some l → SrvStep s .serve { s with pc := .check }
  /-- tserver_socket.go:88 -/
  | listenOk (s) : s.pc = .listen → s.listener = none →
      SrvStep s .serve { s with pc := .check, listener := some s.listeners, listeners := s.listeners + 1 }
  /-- tserver_socket.go:88-89, tsimple_server.go:116-118 -/
  | listenErr (s) : s.pc = .listen → s.listener = none → SrvStep s (.returned true) { s with pc := .returned true }
  /-- tsimple_server.go:119 -/
  | checkGo (s) : s.pc = .check → s.stopped = false → SrvStep s .serve { s with pc := .accept }
  /-- tsimple_server.go:119, 128 -/
  | checkStop (s) : s.pc = .check → s.stopped = true → SrvStep s (.returned false) { s with pc := .returned false }
  /-- tserver_socket.go:96 -/
  | acceptOpen (s l) : s.pc = .accept → s.listener = some l → SrvStep s .serve { s with pc := .take }
  /-- tserver_socket.go:96 -/
  | acceptNil (s) : s.pc = .accept → s.listener = none → SrvStep s .serve { s with pc := .relisten }
  /-- tserver_socket.go:87-92, 97; only `Listen` makes listeners. -/
  | relistenOk (s) : s.pc = .relisten → s.listener = none →
      SrvStep s .serve { s with pc := .recheck, listener := some s.listeners, listeners := s.listeners + 1 }
  /-- tserver_socket.go:97-98, tsimple_server.go:121-123 -/
  | relistenErr (s) : s.pc = .relisten → s.listener = none → SrvStep s (.returned true) { s with pc := .returned true }
  /-- tserver_socket.go:100 -/
  | recheckOpen (s l) : s.pc = .recheck → s.listener = some l → SrvStep s .serve { s with pc := .take }
  /-- tserver_socket.go:100-101 -/
  | recheckNil (s) : s.pc = .recheck → s.listener = none → SrvStep s (.returned true) { s with pc := .returned true }
  /-- tserver_socket.go:104 -/
  | take (s l) : s.pc = .take → s.listener = some l → SrvStep s .serve { s with pc := .wait l }
  /-- tserver_socket.go:104: a call on a nil interface. -/
  | takeNil (s) : s.pc = .take → s.listener = none → SrvStep s .crashed { s with pc := .crashed }
  /-- tserver_socket.go:104, 108, tsimple_server.go:124-125, 138-148: a connection on
  an open listener; the factories make the transports. -/
  | accepted (s l i o) : s.pc = .wait l → l ∉ s.closed →
      SrvStep s (.accepted s.conns i o) { s with pc := .process s.conns i o, conns := s.conns + 1 }
  /-- tserver_socket.go:105-106, tsimple_server.go:121-123; a closed listener always
  fails, an open one may. -/
  | acceptErr (s l) : s.pc = .wait l → SrvStep s (.returned true) { s with pc := .returned true }
  /-- tsimple_server.go:150-159: the loop goes on. -/
  | processOn (s n i o err) : s.pc = .process n i o → (err = true → s.stopped = true) →
      SrvStep s (.processed n) s
  /-- tsimple_server.go:150-154: an error while not stopped. -/
  | processErr (s n i o) : s.pc = .process n i o → s.stopped = false →
      SrvStep s (.processed n) { s with pc := .closeOut n i o false }
  /-- tsimple_server.go:157-158: not ok. -/
  | processEnd (s n i o) : s.pc = .process n i o → SrvStep s (.processed n) { s with pc := .closeOut n i o false }
  /-- tsimple_server.go:150: the processor panics. -/
  | processPanic (s n i o) : s.pc = .process n i o → SrvStep s (.processed n) { s with pc := .closeOut n i o true }
  /-- tsimple_server.go:146-148 -/
  | closeOut (s n i p) : s.pc = .closeOut n i true p → SrvStep s (.closedOut n) { s with pc := .closeIn n i p }
  | closeOutNil (s n i p) : s.pc = .closeOut n i false p → SrvStep s .serve { s with pc := .closeIn n i p }
  /-- tsimple_server.go:143-145; then the loop condition is next. -/
  | closeIn (s n) : s.pc = .closeIn n true false → SrvStep s (.closedIn n) { s with pc := .check }
  | closeInNil (s n) : s.pc = .closeIn n false false → SrvStep s .serve { s with pc := .check }
  /-- The panic goes on after the deferred calls. -/
  | closeInPanic (s n) : s.pc = .closeIn n true true → SrvStep s (.closedIn n) { s with pc := .closeIn n false true }
  | panic (s n) : s.pc = .closeIn n false true → SrvStep s .crashed { s with pc := .crashed }
  /-- tsimple_server.go:132 -/
  | stop (s) : s.stop = .idle → SrvStep s .stop { s with stopped := true, stop := .test }
  /-- tserver_socket.go:170 -/
  | stopOpen (s l) : s.stop = .test → s.listener = some l → SrvStep s .stopping { s with stop := .close l }
  | stopNil (s) : s.stop = .test → s.listener = none → SrvStep s .stopping { s with stop := .done }
  /-- tserver_socket.go:171 -/
  | stopClose (s l) : s.stop = .close l → SrvStep s .stopping { s with stop := .clear, closed := l :: s.closed }
  /-- tserver_socket.go:172-174, tsimple_server.go:133: the error is dropped. -/
  | stopCloseErr (s l) : s.stop = .close l → SrvStep s .stopping { s with stop := .done }
  /-- tserver_socket.go:175 -/
  | stopClear (s) : s.stop = .clear → SrvStep s .stopping { s with stop := .done, listener := none }
  /-- tsimple_server.go:134 -/
  | stopReturn (s) : s.stop = .done → SrvStep s .stopReturned { s with stop := .idle }

/-- The executions: any interleaving of the steps. -/
inductive SrvExec : Srv → List SrvEvent → Srv → Prop where
  | nil (s) : SrvExec s [] s
  | snoc {s ls s' l s''} : SrvExec s ls s' → SrvStep s' l s'' → SrvExec s (ls ++ [l]) s''

end Thrift
