import Verif.Model.AcceptTimeout
import Verif.Props.Deadline
/-!
# C193: timeouts of accepted connections
-/

namespace Thrift

/-- The timeout after some calls: the one set last, or else the one given. -/
def lastSet (t : Int) (ops : List AcceptOp) : Int :=
  (ops.filterMap fun op => match op with | .setTimeout t => some t | _ => none).getLastD t

/-- Reading from the socket observes the timeout `t`, whenever and however often it
has been read and waited, and whatever is on the other side. -/
def ReadsObserve (t : Int) (s : TSock) : Prop :=
  ∀ (ν : Type) (N : Peer ν) (k : Nat) (w : Wire ν),
    Observes t w.now (N.read k w.out).1.1 ((s.read N k w).1, (s.read N k w).2.2.now)
      (fun a => a = ((N.read k w.out).1.2.1, transportFromOsError (N.read k w.out).1.2.2))

/-- What a server socket has accepted in a history, whose calls up to then have set
the timeout to `conf`. -/
def AllObserve (step : AcceptOp → TimedSrv ℓ → ν → Option κ × TimedSrv ℓ × ν) (conf : Int → List AcceptOp → Int) : Prop :=
  ∀ (s : TimedSrv ℓ) (n : ν) (ops : List AcceptOp), ∀ c ∈ (TimedSrv.history step ops s n).1,
    ∃ before after, ops = before ++ .accept :: after ∧ ∀ remote local_, ReadsObserve (conf s.timeout before) (c.2 remote local_)

/-- C193 in full: reading from a connection that a server socket has accepted observes
the timeout that the server socket had then, and the factories of server sockets
make sockets with the timeout of the server socket they are given. -/
def C193_statement : Prop :=
  (∀ (ℓ κ ν : Type) (N : LNet ℓ κ ν), AllObserve (TimedSrv.nbStep N) lastSet ∧ AllObserve (TimedSrv.step N) (fun t _ => t)) ∧
  (∀ (ℓ : Type) (addr : Option (Bytes × Bytes)) (t : Int) (s : TimedSrv ℓ),
    (serverSocketFactory addr t (some (.server s))).timeout = s.timeout ∧
    (serverSocketFactory addr t (some (.nonblocking s))).timeout = s.timeout ∧
    (nbServerSocketFactory addr (some (.server s))).timeout = s.timeout ∧
    (nbServerSocketFactory addr (some (.nonblocking s))).timeout = s.timeout)

/-- The factory of nonblocking server sockets drops the timeout of a server socket of
the other kind. -/
theorem C193_violated : ¬ C193_statement := fun h =>
  absurd (h.2 Unit none 0 (TimedSrv.new (some ([1], [1])) 5)).2.2.1 (by decide)

/-- Each factory drops the timeout of a server socket without address. -/
theorem C193_address_violated : ¬ C193_statement := fun h =>
  absurd (h.2 Unit none 0 (TimedSrv.new none 5)).2.2.2 (by decide)

/-- The factory of server sockets exchanges the timeout of a nonblocking one for its
own. -/
theorem C193_other_violated : ¬ C193_statement := fun h =>
  absurd (h.2 Unit none 7 (TimedSrv.new (some ([1], [1])) 5)).2.1 (by decide)

theorem accepted_observes (s : TimedSrv ℓ) (remote local_ : Option (Bytes × Bytes)) :
    ReadsObserve s.timeout (s.accepted remote local_) := fun _ N k w => C148_reads N k (s.accepted remote local_) w rfl

theorem all_observe {step : AcceptOp → TimedSrv ℓ → ν → Option κ × TimedSrv ℓ × ν} {conf : Int → List AcceptOp → Int}
    (h0 : ∀ t, conf t [] = t) (hs : ∀ op s n ops, conf (step op s n).2.1.timeout ops = conf s.timeout (op :: ops))
    (ha : ∀ op s n, (step op s n).1 ≠ none → op = .accept) : AllObserve step conf := by
  intro s n ops
  induction ops generalizing s n with
  | nil => intro c hc; exact absurd hc (by simp [TimedSrv.history])
  | cons op ops ih =>
    intro c hc
    unfold TimedSrv.history at hc
    simp only [List.mem_append] at hc
    rcases hc with hc | hc
    · cases hx : (step op s n).1 with
      | none => rw [hx] at hc; exact absurd hc (by simp)
      | some x =>
        rw [hx] at hc
        simp only [List.mem_singleton] at hc
        subst hc
        refine ⟨[], ops, by rw [ha op s n (by rw [hx]; simp)]; rfl, fun remote local_ => ?_⟩
        rw [h0]
        exact accepted_observes s remote local_
    · obtain ⟨before, after, rfl, h⟩ := ih _ _ c hc
      refine ⟨op :: before, after, rfl, fun remote local_ => ?_⟩
      rw [← hs op s n before]
      exact h remote local_

theorem lastSet_cons (t : Int) (op : AcceptOp) (ops : List AcceptOp) :
    lastSet t (op :: ops) = lastSet (match op with | .setTimeout t' => t' | _ => t) ops := by
  unfold lastSet
  rw [List.filterMap_cons]
  cases op <;> simp only
  cases List.filterMap _ ops <;> rfl

/-- C193 for connections: proved for all histories of both kinds of server sockets,
whatever the network does.  Missing is what `C193_violated`,
`C193_address_violated` and `C193_other_violated` refute. -/
theorem C193_partial (N : LNet ℓ κ ν) : AllObserve (TimedSrv.nbStep N) lastSet ∧ AllObserve (TimedSrv.step N) (fun t _ => t) := by
  constructor
  · refine all_observe (fun _ => rfl) (fun op s n ops => ?_) (fun op s n h => ?_)
    · rw [lastSet_cons]; cases op <;> rfl
    · cases op <;> first | rfl | exact absurd rfl h
  · refine all_observe (fun _ => rfl) (fun op s n ops => ?_) (fun op s n h => ?_)
    · cases op <;> rfl
    · cases op <;> first | rfl | exact absurd rfl h

/-- A network that always lets listen and accepts. -/
def easyNet : LNet Unit Nat Nat := ⟨fun _ _ n => (.ok (), n), fun _ n => (.ok n, n + 1), fun _ n => (none, n)⟩

/-- Two connections are accepted, with different timeouts. -/
example : ((TimedSrv.history (TimedSrv.nbStep easyNet) [.listen, .accept, .setTimeout 9, .accept] (TimedSrv.new (some ([1], [1])) 5) 0).1.map
    fun c => (c.1, (c.2 none none).timeout)) = [(0, 5), (1, 9)] := by rfl

/-- Every connection that the listener gives is accepted, by a listening socket of
either kind. -/
theorem C193_accepts (N : LNet ℓ κ ν) (s : TimedSrv ℓ) (n n' : ν) (l : ℓ) (c : κ) (ops : List AcceptOp) (h : s.sock.listener = some l)
    (ha : N.accept l n = (.ok c, n')) :
    (TimedSrv.history (TimedSrv.nbStep N) (.accept :: ops) s n).1 = (c, s.accepted) :: (TimedSrv.history (TimedSrv.nbStep N) ops s n').1 ∧
    (TimedSrv.history (TimedSrv.step N) (.accept :: ops) s n).1 = (c, s.accepted) :: (TimedSrv.history (TimedSrv.step N) ops s n').1 := by
  obtain ⟨s, t⟩ := s
  simp only at h
  constructor
  · simp only [TimedSrv.history, TimedSrv.nbStep, SrvSock.nbAccept, h, SrvSock.acceptOn, ha, List.singleton_append]
  · simp only [TimedSrv.history, TimedSrv.step, SrvSock.accept, h, SrvSock.acceptOn, ha, List.singleton_append]

example := C193_accepts easyNet (TimedSrv.ofListener () none) 7 8 () 7 [.accept] rfl rfl

/-- The socket of an accepted connection is open and has nothing to flush; its address
is that of the other side if there is one, and else its own. -/
theorem C193_fresh (s : TimedSrv ℓ) (remote local_ : Option (Bytes × Bytes)) :
    (s.accepted remote local_).conn = true ∧ (s.accepted remote local_).writeBuffer = [] ∧
    (s.accepted remote local_).addr = (if remote = none then local_ else remote) := by
  cases remote <;> exact ⟨rfl, rfl, rfl⟩

/-- What a server socket accepts that was made of a listener, or of an address only, is
read without a time limit: a read that is never answered never ends. -/
theorem C193_unlimited (l : ℓ) (addr remote local_ : Option (Bytes × Bytes)) (N : Peer ν) (k : Nat) (w : Wire ν)
    (h : (N.read k w.out).1.1 = none) :
    (TimedSrv.ofListener l addr).sock.isOpen = true ∧ (TimedSrv.ofAddr addr : TimedSrv ℓ).sock.isOpen = false ∧
    (((TimedSrv.ofListener l addr).accepted remote local_).read N k w).1 = .stuck ∧
    (((TimedSrv.ofAddr addr : TimedSrv ℓ).accepted remote local_).read N k w).1 = .stuck := by
  refine ⟨rfl, rfl, ?_⟩
  unfold TSock.read
  rcases hx : N.read k w.out with ⟨⟨delay, bs, e⟩, n⟩
  rw [hx] at h
  simp only at h
  subst h
  exact ⟨rfl, rfl⟩

example := C193_unlimited () none none none (⟨fun _ _ n => ((none, .ok ()), n), fun _ n => ((none, ([], none)), n), fun _ n => ((none, (0, none)), n)⟩ : Peer Unit) 1 ⟨0, none, none, ()⟩ rfl

/-- The timeout set later has no effect on connections accepted before. -/
theorem C193_before (N : LNet ℓ κ ν) (s : TimedSrv ℓ) (n : ν) (ops : List AcceptOp) (t : Int) :
    (TimedSrv.history (TimedSrv.nbStep N) (ops ++ [.setTimeout t]) s n).1 = (TimedSrv.history (TimedSrv.nbStep N) ops s n).1 := by
  induction ops generalizing s n with
  | nil => rfl
  | cons op ops ih =>
    simp only [List.cons_append, TimedSrv.history]
    rw [ih]

/-- C193 for factories: exactly when the timeout is kept. -/
theorem C193_factory_partial (addr : Option (Bytes × Bytes)) (t : Int) (s : TimedSrv ℓ) :
    ((serverSocketFactory addr t (some (.server s))).timeout = s.timeout ↔ s.sock.addr ≠ none ∨ t = s.timeout) ∧
    ((serverSocketFactory addr t (some (.nonblocking s))).timeout = s.timeout ↔ t = s.timeout) ∧
    ((nbServerSocketFactory addr (some (.nonblocking s))).timeout = s.timeout ↔ s.sock.addr ≠ none ∨ 0 = s.timeout) ∧
    ((nbServerSocketFactory addr (some (.server s))).timeout = s.timeout ↔ 0 = s.timeout) := by
  refine ⟨?_, Iff.rfl, ?_, Iff.rfl⟩
  · unfold serverSocketFactory
    cases h : s.sock.addr with
    | none => simp [TimedSrv.new, h]
    | some a => simp [TimedSrv.new, h]
  · unfold nbServerSocketFactory
    cases h : s.sock.addr with
    | none => simp [TimedSrv.ofAddr, h]
    | some a => simp [TimedSrv.new, h]

/-- What the factories make is a closed server socket whatever they are given, with
the given address or their own. -/
theorem C193_closed (addr : Option (Bytes × Bytes)) (t : Int) (x : Option (SomeTransport ℓ)) :
    (serverSocketFactory addr t x).sock.isOpen = false ∧ (nbServerSocketFactory addr x).sock.isOpen = false ∧
    (∀ a s, x = some (.server s) → s.sock.addr = some a → (serverSocketFactory addr t x).sock.addr = some a) ∧
    (∀ a s, x = some (.nonblocking s) → s.sock.addr = some a → (nbServerSocketFactory addr x).sock.addr = some a) ∧
    (x = some .other ∨ x = none → (serverSocketFactory addr t x).sock.addr = addr ∧ (nbServerSocketFactory addr x).sock.addr = addr) := by
  refine ⟨?_, ?_, ?_, ?_, ?_⟩
  · unfold serverSocketFactory; repeat' split
    all_goals rfl
  · unfold nbServerSocketFactory; repeat' split
    all_goals rfl
  · rintro a s rfl h; simp [serverSocketFactory, h, TimedSrv.new, SrvSock.new]
  · rintro a s rfl h; simp [nbServerSocketFactory, h, TimedSrv.new, SrvSock.new]
  · rintro (rfl | rfl) <;> exact ⟨rfl, rfl⟩

example : (serverSocketFactory (ℓ := Unit) none 3 (some (.server (TimedSrv.new (some ([1], [2])) 5)))).sock.addr = some ([1], [2]) := rfl

end Thrift
