import Verif.Model.SimpleServer
/-!
# The non-blocking server and its server socket

`TNonblockingServer` (tnonblocking_server.go:123-175) on a
`TNonblockingServerSocket` (tnonblocking_server_socket.go:58-170).  `Serve` runs in
one goroutine, `Stop` is called from another one any number of times, and every
accepted connection gets a goroutine of its own (tnonblocking_server.go:135).  All
share the flag `stopped`, `Serve` and `Stop` also the field `listener`, without a
lock.

Simplifications: memory is sequentially consistent and every access to a shared
field is one step (`Close` loads the listener in the step that tests it: nothing
but `Serve` sets the field, and only where it was nil); calls of `Serve` do not
overlap, and neither do calls of `Stop`; factories do not panic.  What the network,
the factories and the processor do is left open.
-/

namespace Thrift

/-- Why `Serve` returns an error. -/
inductive NbErr where
  /-- Of `net.Listen` or of the listener. -/
  | network
  /-- `ALREADY_OPEN`, tnonblocking_server_socket.go:106. -/
  | alreadyOpen
  /-- `NOT_OPEN`, tnonblocking_server_socket.go:140. -/
  | notOpen
  deriving DecidableEq

/-- Where `Serve` stands. -/
inductive NbPc where
  /-- Not yet called. -/
  | idle
  /-- At `IsOpen` in `Open`, tnonblocking_server_socket.go:98. -/
  | listen
  /-- At `net.Listen`, tnonblocking_server_socket.go:99. -/
  | bind
  /-- At the loop condition, tnonblocking_server.go:129. -/
  | check
  /-- At `IsOpen` in `Accept`, tnonblocking_server_socket.go:139. -/
  | accept
  /-- Loading the listener, tnonblocking_server_socket.go:142. -/
  | take
  /-- In the `Accept` of listener `l`, tnonblocking_server_socket.go:142. -/
  | wait (l : Nat)
  /-- Returned. -/
  | returned (err : Option NbErr)
  deriving DecidableEq

/-- Where the goroutine of a connection stands. -/
inductive ConnPc where
  /-- Not yet begun, tnonblocking_server.go:151. -/
  | fresh
  /-- At `Process`, tnonblocking_server.go:164; whether there is an input and an output
  transport. -/
  | process (i o : Bool)
  /-- At the deferred `Close` of the output transport, tnonblocking_server.go:161, in
  the course of a panic or not. -/
  | closeOut (i o panicking : Bool)
  /-- At the deferred `Close` of the input transport, tnonblocking_server.go:158. -/
  | closeIn (i panicking : Bool)
  /-- All deferred calls made. -/
  | leave (panicking : Bool)
  /-- Ended. -/
  | done
  deriving DecidableEq

/-- The shared state: the flag (tnonblocking_server.go:37), the listener
(tnonblocking_server_socket.go:30), the listeners closed so far, the number of
listeners made so far, the goroutines of the connections, and whether the program
was ended by a panic. -/
structure Nb where
  stopped : Bool
  pc : NbPc
  stop : StopPc
  listener : Option Nat
  closed : List Nat
  listeners : Nat
  conns : List ConnPc
  dead : Bool

/-- A new server, tnonblocking_server.go:90-98, with a socket made from an address,
tnonblocking_server_socket.go:63-66, or from a listener (`given`), lines 58-61. -/
def Nb.new (given : Bool) : Nb :=
  ⟨false, .idle, .idle, if given then some 0 else none, [], if given then 1 else 0, [], false⟩

/-- What can be seen of a step. -/
inductive NbEvent where
  /-- `Serve` is called and has reset the flag. -/
  | start
  /-- Connection `n` is accepted. -/
  | accepted (n : Nat)
  /-- The goroutine of connection `n` has made its transports. -/
  | made (n : Nat) (i o : Bool)
  /-- `Process` has returned on connection `n`. -/
  | processed (n : Nat)
  /-- `Process` has panicked on connection `n`. -/
  | panicked (n : Nat)
  | closedOut (n : Nat)
  | closedIn (n : Nat)
  /-- Connection `n` has nothing more to do. -/
  | left (n : Nat)
  /-- `Serve` has returned. -/
  | returned (err : Option NbErr)
  /-- A panic has ended the program. -/
  | crashed
  /-- Any other step of `Serve`. -/
  | serve
  /-- `Stop` is called and has set the flag. -/
  | stop
  /-- `Stop` has returned. -/
  | stopReturned
  /-- The listener could not be closed. -/
  | stopFailed
  /-- Any other step of `Stop`. -/
  | stopping
  deriving DecidableEq

/-- The steps of the goroutine of connection `n`, given the flag. -/
inductive ConnStep (stopped : Bool) (n : Nat) : ConnPc → NbEvent → ConnPc → Prop where
  /-- tnonblocking_server.go:152-156 -/
  | made (i o) : ConnStep stopped n .fresh (.made n i o) (.process i o)
  /-- tnonblocking_server.go:164-173: the loop goes on. -/
  | processOn (i o err) : (err = true → stopped = true) → ConnStep stopped n (.process i o) (.processed n) (.process i o)
  /-- tnonblocking_server.go:165-168: an error while not stopped. -/
  | processErr (i o) : stopped = false → ConnStep stopped n (.process i o) (.processed n) (.closeOut i o false)
  /-- tnonblocking_server.go:171-172: not ok. -/
  | processEnd (i o) : ConnStep stopped n (.process i o) (.processed n) (.closeOut i o false)
  /-- tnonblocking_server.go:164: the processor panics. -/
  | processPanic (i o) : ConnStep stopped n (.process i o) (.panicked n) (.closeOut i o true)
  /-- tnonblocking_server.go:160-162 -/
  | closeOut (i p) : ConnStep stopped n (.closeOut i true p) (.closedOut n) (.closeIn i p)
  | closeOutNil (i p e c) : ConnStep stopped n (.closeIn i p) e c → ConnStep stopped n (.closeOut i false p) e c
  /-- tnonblocking_server.go:157-159 -/
  | closeIn (p) : ConnStep stopped n (.closeIn true p) (.closedIn n) (.leave p)
  | closeInNil (p e c) : ConnStep stopped n (.leave p) e c → ConnStep stopped n (.closeIn false p) e c
  /-- tnonblocking_server.go:175 -/
  | leave : ConnStep stopped n (.leave false) (.left n) .done
  /-- A panic that nothing recovers ends the program. -/
  | crash : ConnStep stopped n (.leave true) .crashed .done

/-- The steps of the goroutines. -/
inductive NbStep : Nb → NbEvent → Nb → Prop where
  /-- tnonblocking_server.go:124 -/
  | start (s) : s.dead = false → (s.pc = .idle ∨ ∃ e, s.pc = .returned e) → NbStep s .start { s with stopped := false, pc := .listen }
  /-- tnonblocking_server_socket.go:98, 106, tnonblocking_server.go:126-128 -/
  | listenOpen (s l) : s.dead = false → s.pc = .listen → s.listener = some l →
      NbStep s (.returned (some .alreadyOpen)) { s with pc := .returned (some .alreadyOpen) }
  /-- tnonblocking_server_socket.go:98 -/
  | listenNil (s) : s.dead = false → s.pc = .listen → s.listener = none → NbStep s .serve { s with pc := .bind }
  /-- tnonblocking_server_socket.go:99, 103 -/
  | bindOk (s) : s.dead = false → s.pc = .bind →
      NbStep s .serve { s with pc := .check, listener := some s.listeners, listeners := s.listeners + 1 }
  /-- tnonblocking_server_socket.go:99-102, tnonblocking_server.go:126-128 -/
  | bindErr (s) : s.dead = false → s.pc = .bind →
      NbStep s (.returned (some .network)) { s with pc := .returned (some .network) }
  /-- tnonblocking_server.go:129 -/
  | checkGo (s) : s.dead = false → s.pc = .check → s.stopped = false → NbStep s .serve { s with pc := .accept }
  /-- tnonblocking_server.go:129, 138 -/
  | checkStop (s) : s.dead = false → s.pc = .check → s.stopped = true →
      NbStep s (.returned none) { s with pc := .returned none }
  /-- tnonblocking_server_socket.go:139 -/
  | acceptOpen (s l) : s.dead = false → s.pc = .accept → s.listener = some l → NbStep s .serve { s with pc := .take }
  /-- tnonblocking_server_socket.go:139-140, tnonblocking_server.go:131-133 -/
  | acceptNil (s) : s.dead = false → s.pc = .accept → s.listener = none →
      NbStep s (.returned (some .notOpen)) { s with pc := .returned (some .notOpen) }
  /-- tnonblocking_server_socket.go:142 -/
  | take (s l) : s.dead = false → s.pc = .take → s.listener = some l → NbStep s .serve { s with pc := .wait l }
  /-- tnonblocking_server_socket.go:142: a call on a nil interface. -/
  | takeNil (s) : s.dead = false → s.pc = .take → s.listener = none → NbStep s .crashed { s with dead := true }
  /-- tnonblocking_server_socket.go:142, 146, tnonblocking_server.go:134-136: a
  connection on an open listener. -/
  | accepted (s l) : s.dead = false → s.pc = .wait l → l ∉ s.closed →
      NbStep s (.accepted s.conns.length) { s with pc := .check, conns := s.conns ++ [.fresh] }
  /-- tnonblocking_server_socket.go:143-144, tnonblocking_server.go:131-133; a closed
  listener always fails, an open one may. -/
  | acceptErr (s l) : s.dead = false → s.pc = .wait l →
      NbStep s (.returned (some .network)) { s with pc := .returned (some .network) }
  /-- The goroutine of a connection goes on. -/
  | conn (s n e) (h : n < s.conns.length) (c) : s.dead = false → ConnStep s.stopped n s.conns[n] e c →
      NbStep s e { s with conns := s.conns.set n c, dead := decide (e = .crashed) }
  /-- tnonblocking_server.go:142 -/
  | stop (s) : s.dead = false → s.stop = .idle → NbStep s .stop { s with stopped := true, stop := .test }
  /-- tnonblocking_server_socket.go:157-158 -/
  | stopOpen (s l) : s.dead = false → s.stop = .test → s.listener = some l → NbStep s .stopping { s with stop := .close l }
  | stopNil (s) : s.dead = false → s.stop = .test → s.listener = none → NbStep s .stopping { s with stop := .done }
  /-- tnonblocking_server_socket.go:158 -/
  | stopClose (s l) : s.dead = false → s.stop = .close l →
      NbStep s .stopping { s with stop := .clear, closed := l :: s.closed }
  /-- tnonblocking_server_socket.go:159-161, tnonblocking_server.go:143: the error is
  dropped. -/
  | stopCloseErr (s l) : s.dead = false → s.stop = .close l → NbStep s .stopFailed { s with stop := .done }
  /-- tnonblocking_server_socket.go:162 -/
  | stopClear (s) : s.dead = false → s.stop = .clear → NbStep s .stopping { s with stop := .done, listener := none }
  /-- tnonblocking_server.go:144 -/
  | stopReturn (s) : s.dead = false → s.stop = .done → NbStep s .stopReturned { s with stop := .idle }

/-- The executions: any interleaving of the steps. -/
inductive NbExec : Nb → List NbEvent → Nb → Prop where
  | nil (s) : NbExec s [] s
  | snoc {s ls s' l s''} : NbExec s ls s' → NbStep s' l s'' → NbExec s (ls ++ [l]) s''

end Thrift
