import Verif.Spec.Socket
import Verif.Model.IOStream
import Verif.Lemmas.Memory
/-!
# Properties of socket and stream transports (C33-C35)
-/

namespace Thrift

/-! ## C33 socket life cycle -/

/-- C33 in full for the socket with the given step function. -/
def C33_statement_for (κ ν : Type) (step : Net κ ν → SOp → Sock κ → ν → SAns × Sock κ × ν) : Prop :=
  ∀ (N : Net κ ν) (addr : Option (Bytes × Bytes)) (ops : List SOp) (n : ν),
    let r := runSock (step N) ops (Sock.new addr) n
    (r.2.1.isOpen = shouldBeOpen false r.1) ∧
    ∀ op, StepRule (shouldBeOpen false r.1) op (step N op r.2.1 r.2.2).1
      ((step N op r.2.1 r.2.2).2 = r.2)

/-- C33 in full, for both kinds of socket. -/
def C33_statement : Prop :=
  ∀ κ ν : Type, C33_statement_for κ ν SOp.run ∧ C33_statement_for κ ν SOp.runNb

/-- C33 does not hold: when closing the connection fails, the socket stays open. -/
theorem C33_violated : ¬ C33_statement := by
  intro h
  have := (h Nat Nat).1 badCloseNet (some ([1], [1])) [.open, .close] 0
  have := this.1
  revert this
  decide

/-- After `Interrupt` the socket still counts as open, and if closing a
connection a second time fails, as it does for `net.Conn`, no `Close` ever
closes the socket again. -/
theorem C33_interrupt_sticks (N : Net κ ν) (s : Sock κ) (c : κ) (hc : s.conn = some c) (n : ν) (e : Err)
    (hfail : ∀ m, (N.close c m).1 = some e) :
    (s.interrupt N n).2.1 = s ∧
    ∀ k : Nat, ∀ m, (Nat.repeat (fun x : Sock κ × ν => ((x.1.close N x.2).2.1, (x.1.close N x.2).2.2)) k (s, m)).1.isOpen := by
  refine ⟨by simp only [Sock.interrupt, hc], ?_⟩
  intro k m
  have : (Nat.repeat (fun x : Sock κ × ν => ((x.1.close N x.2).2.1, (x.1.close N x.2).2.2)) k (s, m)).1 = s := by
    induction k with
    | zero => rfl
    | succ k ih =>
      simp only [Nat.repeat]
      rw [ih]
      have hf := hfail (Nat.repeat (fun x : Sock κ × ν => ((x.1.close N x.2).2.1, (x.1.close N x.2).2.2)) k (s, m)).2
      revert hf
      generalize (Nat.repeat (fun x : Sock κ × ν => ((x.1.close N x.2).2.1, (x.1.close N x.2).2.2)) k (s, m)).2 = m'
      intro hf
      rcases hn : N.close c m' with ⟨e', n'⟩
      rw [hn] at hf
      simp only at hf
      subst hf
      simp only [Sock.close, hc, hn]
  rw [this, Sock.isOpen, hc]
  rfl

theorem stepRule_sock (N : Net κ ν) (s : Sock κ) (n : ν) (op : SOp) :
    StepRule s.isOpen op (op.run N s n).1 ((op.run N s n).2 = (s, n)) := by
  rcases s with ⟨_ | c, addr, wb⟩ <;> cases op <;>
    simp [StepRule, SOp.run, Sock.isOpen, Sock.open, Sock.close, Sock.read, Sock.write, Sock.flush, notOpenErr,
      alreadyOpenErr, newTTransportException, NOT_OPEN, ALREADY_OPEN]

theorem stepRule_nb (N : Net κ ν) (s : Sock κ) (n : ν) (op : SOp) :
    StepRule s.isOpen op (op.runNb N s n).1 ((op.runNb N s n).2 = (s, n)) := by
  rcases s with ⟨_ | c, addr, wb⟩ <;> cases op <;>
    simp [StepRule, SOp.runNb, Sock.isOpen, Sock.open, Sock.close, Sock.read, Sock.nbWrite, Sock.nbFlush, notOpenErr,
      alreadyOpenErr, newTTransportException, NOT_OPEN, ALREADY_OPEN]

theorem open_isOpen (N : Net κ ν) (s : Sock κ) (n : ν) :
    (s.open N n).2.1.isOpen = (s.isOpen || (s.open N n).1.isNone) := by
  unfold Sock.open
  by_cases h : s.isOpen
  · simp [h]
  · have h' : s.isOpen = false := by simpa using h
    simp only [h]
    rcases ha : s.addr with _ | ⟨a, b⟩
    · simp [h']
    · simp only [Bool.false_eq_true, if_false]
      by_cases h1 : a.length = 0
      · simp [h1, h']
      · by_cases h2 : b.length = 0
        · simp [h1, h2, h']
        · simp only [h1, h2, if_false]
          rcases N.dial a b n with ⟨_ | _, n'⟩ <;> simp [Sock.isOpen]

theorem close_isOpen (N : Net κ ν) (s : Sock κ) (n : ν) :
    (s.close N n).2.1.isOpen = (s.isOpen && (s.close N n).1.isSome) := by
  rcases s with ⟨_ | c, addr, wb⟩
  · rfl
  · simp only [Sock.close]
    rcases N.close c n with ⟨_ | _, n'⟩ <;> rfl

theorem sock_isOpen (N : Net κ ν) (op : SOp) (s : Sock κ) (n : ν) (h : List (SOp × SAns)) :
    openBySuccess s.isOpen ((op, (op.run N s n).1) :: h) = openBySuccess (op.run N s n).2.1.isOpen h := by
  cases op with
  | «open» => simp only [openBySuccess, SOp.run, SAns.err, open_isOpen]
  | close => simp only [openBySuccess, SOp.run, SAns.err, close_isOpen]
  | read k =>
    rcases s with ⟨_ | c, addr, wb⟩ <;> simp [openBySuccess, SOp.run, Sock.read, Sock.isOpen]
  | write bs =>
    rcases s with ⟨_ | c, addr, wb⟩ <;> simp [openBySuccess, SOp.run, Sock.write, Sock.isOpen]
  | flush =>
    have : (s.flush N n).2.1.isOpen = s.isOpen := by
      rcases s with ⟨_ | c, addr, wb⟩
      · rfl
      · simp only [Sock.flush]
        repeat' split
        all_goals rfl
    simp only [openBySuccess, SOp.run]
    rw [← this]
    rcases s.flush N n with ⟨_ | _ | _, x⟩ <;> rfl

theorem nb_isOpen (N : Net κ ν) (op : SOp) (s : Sock κ) (n : ν) (h : List (SOp × SAns)) :
    openBySuccess s.isOpen ((op, (op.runNb N s n).1) :: h) = openBySuccess (op.runNb N s n).2.1.isOpen h := by
  cases op with
  | «open» => simp only [openBySuccess, SOp.runNb, SAns.err, open_isOpen]
  | close => simp only [openBySuccess, SOp.runNb, SAns.err, close_isOpen]
  | read k =>
    rcases s with ⟨_ | c, addr, wb⟩ <;> simp [openBySuccess, SOp.runNb, Sock.read, Sock.isOpen]
  | write bs =>
    rcases s with ⟨_ | c, addr, wb⟩ <;> simp [openBySuccess, SOp.runNb, Sock.nbWrite, Sock.isOpen]
  | flush =>
    rcases s with ⟨_ | c, addr, wb⟩
    · rfl
    · simp only [openBySuccess, SOp.runNb, Sock.nbFlush]
      split <;> rfl

theorem run_isOpen {step : SOp → Sock κ → ν → SAns × Sock κ × ν}
    (hstep : ∀ op s n h, openBySuccess s.isOpen ((op, (step op s n).1) :: h) =
      openBySuccess (step op s n).2.1.isOpen h) : ∀ (ops : List SOp) (s : Sock κ) (n : ν),
    (runSock step ops s n).2.1.isOpen = openBySuccess s.isOpen (runSock step ops s n).1
  | [], _, _ => rfl
  | op :: ops, s, n => by
    simp only [runSock]
    rw [hstep, run_isOpen hstep ops]

/-- Every `Close` in the history reported success. -/
def AllClosesSucceed (h : List (SOp × SAns)) : Prop := ∀ x ∈ h, x.1 = .close → x.2.err = none

theorem openBySuccess_eq : ∀ (b : Bool) (h : List (SOp × SAns)), AllClosesSucceed h →
    openBySuccess b h = shouldBeOpen b h
  | _, [], _ => rfl
  | b, (op, a) :: h, hs => by
    have ih := fun b => openBySuccess_eq b h fun x hx => hs x (List.mem_cons_of_mem _ hx)
    cases op with
    | close =>
      have := hs (.close, a) (by simp) rfl
      simp only at this
      simp [openBySuccess, shouldBeOpen, this, ih]
    | _ => simp [openBySuccess, shouldBeOpen, ih]

/-- C33, what remains, for both kinds of socket and all histories: the socket is
open exactly between a successful `Open` and the next `Close` that reports
success (so exactly as stated when all `Close` calls succeed), and every call
obeys the rules of the statement.  Missing: a `Close` whose connection fails to
close. -/
theorem C33_lifecycle_partial (N : Net κ ν) (addr : Option (Bytes × Bytes)) (ops : List SOp) (n : ν) :
    (let r := runSock (SOp.run N) ops (Sock.new addr) n
     r.2.1.isOpen = openBySuccess false r.1 ∧
     (AllClosesSucceed r.1 → r.2.1.isOpen = shouldBeOpen false r.1) ∧
     ∀ op, StepRule (openBySuccess false r.1) op (op.run N r.2.1 r.2.2).1 ((op.run N r.2.1 r.2.2).2 = r.2)) ∧
    (let r := runSock (SOp.runNb N) ops (Sock.new addr) n
     r.2.1.isOpen = openBySuccess false r.1 ∧
     (AllClosesSucceed r.1 → r.2.1.isOpen = shouldBeOpen false r.1) ∧
     ∀ op, StepRule (openBySuccess false r.1) op (op.runNb N r.2.1 r.2.2).1 ((op.runNb N r.2.1 r.2.2).2 = r.2)) := by
  constructor
  · have h := run_isOpen (sock_isOpen N) ops (Sock.new addr) n
    refine ⟨h, fun hs => by rw [h]; exact openBySuccess_eq _ _ hs, fun op => ?_⟩
    have := stepRule_sock N (runSock (SOp.run N) ops (Sock.new addr) n).2.1 (runSock (SOp.run N) ops (Sock.new addr) n).2.2 op
    rw [h] at this
    exact this
  · have h := run_isOpen (nb_isOpen N) ops (Sock.new addr) n
    refine ⟨h, fun hs => by rw [h]; exact openBySuccess_eq _ _ hs, fun op => ?_⟩
    have := stepRule_nb N (runSock (SOp.runNb N) ops (Sock.new addr) n).2.1 (runSock (SOp.runNb N) ops (Sock.new addr) n).2.2 op
    rw [h] at this
    exact this

example : AllClosesSucceed (runSock (SOp.run goodNet) [.open, .write [1], .close, .close, .open] (Sock.new (some ([1], [1]))) 0).1 ∧
    shouldBeOpen false (runSock (SOp.run goodNet) [.open, .write [1], .close, .close, .open] (Sock.new (some ([1], [1]))) 0).1 = true := by
  constructor
  · unfold AllClosesSucceed; decide
  · decide

/-! ## C34 unflushed bytes do not cross connections -/

/-- C34 in full: whatever a `Flush` hands to the connection was written after
the connection was opened. -/
def C34_statement : Prop :=
  ∀ (κ ν : Type) (N : Net κ ν) (addr : Option (Bytes × Bytes)) (ops : List SOp) (n : ν),
    let r := runSock (SOp.run N.logged) ops (Sock.new addr) (n, [])
    ∃ log, (SOp.run N.logged .flush r.2.1 r.2.2).2.2.2 = r.2.2.2 ++ log ∧
      ∀ x ∈ log, x.2 <:+ writtenSinceOpen [] r.1

/-- C34 does not hold: bytes written on one connection go out on the next. -/
theorem C34_violated : ¬ C34_statement := by
  intro h
  obtain ⟨log, h1, h2⟩ := h Nat Nat goodNet (some ([1], [1])) [.open, .write [7], .close, .open] 0
  have e : (SOp.run goodNet.logged .flush
      (runSock (SOp.run goodNet.logged) [.open, .write [7], .close, .open] (Sock.new (some ([1], [1]))) (0, [])).2.1
      (runSock (SOp.run goodNet.logged) [.open, .write [7], .close, .open] (Sock.new (some ([1], [1]))) (0, [])).2.2).2.2.2 =
    [(1, [7])] := by decide
  rw [e] at h1
  have e2 : (runSock (SOp.run goodNet.logged) [.open, .write [7], .close, .open] (Sock.new (some ([1], [1]))) (0, [])).2.2.2 = [] := by
    decide
  rw [e2, List.nil_append] at h1
  have := h2 (1, [7]) (by rw [← h1]; simp)
  revert this
  decide

theorem flush_logged (N : Net κ ν) (s : Sock κ) (c : κ) (n : ν) (l : List (κ × Bytes)) (hc : s.conn = some c)
    (hw : s.writeBuffer.length ≠ 0) : (s.flush N.logged (n, l)).2.2.2 = l ++ [(c, s.writeBuffer)] := by
  unfold Sock.flush
  rw [hc]
  dsimp only
  rw [if_neg hw]
  repeat' split
  all_goals rfl

/-- The exact rule: `Close` and `Open` keep the write buffer, so the next
`Flush` sends on the new connection whatever was left over. -/
theorem C34_stale_bytes_sent (N : Net κ ν) (s : Sock κ) (n n1 n2 : ν) (c c' : κ) (a b : Bytes)
    (hc : s.conn = some c) (ha : s.addr = some (a, b)) (h1 : a ≠ []) (h2 : b ≠ [])
    (hclose : N.close c n = (none, n1)) (hdial : N.dial a b n1 = (.ok c', n2)) (hw : s.writeBuffer ≠ []) (l : List (κ × Bytes)) :
    let s1 := (s.close N.logged (n, l)).2
    let s2 := (s1.1.open N.logged s1.2).2
    s2.1.conn = some c' ∧ s2.1.writeBuffer = s.writeBuffer ∧
      (s2.1.flush N.logged s2.2).2.2.2 = l ++ [(c', s.writeBuffer)] := by
  have h1' : a.length ≠ 0 := by simpa using h1
  have h2' : b.length ≠ 0 := by simpa using h2
  have hw' : s.writeBuffer.length ≠ 0 := by simpa using hw
  have e1 : s.close N.logged (n, l) = (none, { s with conn := none }, (n1, l)) := by
    simp only [Sock.close, hc, Net.logged, hclose]
  have e2 : ({ s with conn := none } : Sock κ).open N.logged (n1, l) = (none, { s with conn := some c' }, (n2, l)) := by
    simp only [Sock.open, Sock.isOpen, ha, h1', h2', if_false, Net.logged, hdial]
    simp
  simp only [e1, e2]
  refine ⟨trivial, trivial, ?_⟩
  exact flush_logged N _ c' n2 l rfl hw'

/-- The write buffer before each `Open` of the history is empty. -/
def CleanOpens (step : SOp → Sock κ → ν → SAns × Sock κ × ν) : List SOp → Sock κ → ν → Prop
  | [], _, _ => True
  | op :: ops, s, n => (op = .open → s.conn = none → s.writeBuffer = []) ∧
      CleanOpens step ops (step op s n).2.1 (step op s n).2.2

theorem buffer_suffix (N : Net κ ν) : ∀ (ops : List SOp) (s : Sock κ) (n : ν) (w : Bytes),
    CleanOpens (SOp.run N) ops s n → s.writeBuffer <:+ w →
    (runSock (SOp.run N) ops s n).2.1.writeBuffer <:+ writtenSinceOpen w (runSock (SOp.run N) ops s n).1
  | [], _, _, _, _, h => h
  | op :: ops, s, n, w, hc, h => by
    have ih := fun w => buffer_suffix N ops (op.run N s n).2.1 (op.run N s n).2.2 w hc.2
    simp only [runSock]
    cases op with
    | «open» =>
      by_cases hs : s.conn = none
      · have hb := hc.1 rfl hs
        have keep : (s.open N n).2.1.writeBuffer = [] := by
          unfold Sock.open
          repeat' split
          all_goals exact hb
        rcases he : (s.open N n).1 with _ | e
        · simp only [SOp.run, he, writtenSinceOpen]
          exact ih [] (by simp [SOp.run, keep])
        · simp only [SOp.run, he, writtenSinceOpen]
          exact ih w (by simp [SOp.run, keep])
      · have : s.isOpen = true := by
          cases hcon : s.conn with
          | none => exact absurd hcon hs
          | some c => simp [Sock.isOpen, hcon]
        have e : s.open N n = (some alreadyOpenErr, s, n) := by simp [Sock.open, this]
        have := ih w (by simp only [SOp.run, e]; exact h)
        simp only [SOp.run, e, writtenSinceOpen] at this ⊢
        exact this
    | close =>
      have keep : (s.close N n).2.1.writeBuffer = s.writeBuffer := by
        unfold Sock.close
        repeat' split
        all_goals rfl
      simp only [SOp.run, writtenSinceOpen]
      exact ih w (by simp only [SOp.run, keep]; exact h)
    | read k =>
      have keep : (s.read N k n).2.1.writeBuffer = s.writeBuffer := by
        unfold Sock.read
        split <;> rfl
      simp only [SOp.run, writtenSinceOpen]
      exact ih w (by simp only [SOp.run, keep]; exact h)
    | write bs =>
      rcases hcon : s.conn with _ | c
      · have e : s.write bs = ((0, some notOpenErr), s) := by simp [Sock.write, hcon]
        have := ih w (by simp only [SOp.run, e]; exact h)
        simp only [SOp.run, e, writtenSinceOpen] at this ⊢
        exact this
      · have e : s.write bs = ((bs.length, none), { s with writeBuffer := s.writeBuffer ++ bs }) := by
          simp [Sock.write, hcon]
        have := ih (w ++ bs) (by
          simp only [SOp.run, e]
          obtain ⟨p, hp⟩ := h
          exact ⟨p, by rw [← hp, List.append_assoc]⟩)
        simp only [SOp.run, e, writtenSinceOpen] at this ⊢
        exact this
    | flush =>
      have keep : (s.flush N n).2.1.writeBuffer <:+ s.writeBuffer := by
        unfold Sock.flush
        repeat' split
        all_goals first | exact List.suffix_refl _ | exact List.drop_suffix _ _
      have hk := List.IsSuffix.trans keep h
      have := ih w (by
        simp only [SOp.run]
        rcases hf : s.flush N n with ⟨_ | _ | _, x⟩ <;> (rw [hf] at hk; exact hk))
      revert this
      simp only [SOp.run]
      rcases hf : s.flush N n with ⟨_ | _ | _, x⟩ <;> exact fun this => this

/-- C34, what remains: if the write buffer is empty whenever a connection is
opened (all data flushed before `Close`), every `Flush` of a `TSocket` sends
only what was written on the same connection.  The non-blocking socket never
holds anything back, so nothing can cross.  Missing: a `TSocket` closed with
unflushed bytes (`C34_stale_bytes_sent`). -/
theorem C34_no_stale_bytes_partial (N : Net κ ν) (addr : Option (Bytes × Bytes)) (ops : List SOp) (n : ν)
    (hc : CleanOpens (SOp.run N.logged) ops (Sock.new addr) (n, [])) :
    let r := runSock (SOp.run N.logged) ops (Sock.new addr) (n, [])
    ∃ log, (SOp.run N.logged .flush r.2.1 r.2.2).2.2.2 = r.2.2.2 ++ log ∧
      ∀ x ∈ log, r.2.1.conn = some x.1 ∧ x.2 <:+ writtenSinceOpen [] r.1 := by
  have h := buffer_suffix N.logged ops (Sock.new addr) (n, []) [] hc (List.suffix_refl _)
  revert h
  simp only
  generalize runSock (SOp.run N.logged) ops (Sock.new addr) (n, []) = r
  obtain ⟨hist, s, n', l⟩ := r
  intro h
  simp only at h ⊢
  rcases hcon : s.conn with _ | c
  · exact ⟨[], by simp [SOp.run, Sock.flush, hcon], by simp⟩
  · by_cases hw : s.writeBuffer.length = 0
    · exact ⟨[], by simp [SOp.run, Sock.flush, hcon, hw], by simp⟩
    · refine ⟨[(c, s.writeBuffer)], ?_, ?_⟩
      · rw [← flush_logged N s c n' l hcon hw]
        simp only [SOp.run]
        rcases s.flush N.logged (n', l) with ⟨_ | _ | _, x⟩ <;> rfl
      · intro x hx
        simp only [List.mem_singleton] at hx
        subst hx
        exact ⟨rfl, h⟩

/-- C34 for the non-blocking socket: a call hands bytes to a connection only
when it is a `Write` of these bytes and the connection is the current one. -/
theorem C34_nonblocking (N : Net κ ν) (op : SOp) (s : Sock κ) (n : ν) (l : List (κ × Bytes)) :
    (op.runNb N.logged s (n, l)).2.2.2 =
      l ++ (match op, s.conn with
        | .write bs, some c => [(c, bs)]
        | _, _ => []) := by
  rcases s with ⟨_ | c, addr, wb⟩
  · cases op with
    | «open» =>
      simp only [SOp.runNb, Sock.open, Sock.isOpen]
      repeat' split
      all_goals simp_all [Net.logged]
      all_goals
        rename_i heq
        rw [Prod.ext_iff] at heq
        obtain ⟨_, h2⟩ := heq
        exact h2.2.symm
    | _ => simp [SOp.runNb, Sock.close, Sock.read, Sock.nbWrite, Sock.nbFlush]
  · cases op with
    | «open» => simp [SOp.runNb, Sock.open, Sock.isOpen]
    | close =>
      simp only [SOp.runNb, Sock.close]
      rcases h : N.logged.close c (n, l) with ⟨_ | _, n'⟩
      all_goals
        have := congrArg (fun x => x.2.2) h
        simpa [Net.logged] using this.symm
    | read k => simp [SOp.runNb, Sock.read, Net.logged]
    | write bs => simp [SOp.runNb, Sock.nbWrite, Net.logged]
    | flush =>
      rcases N with ⟨d, r, w, cl, _ | f⟩ <;> simp [SOp.runNb, Sock.nbFlush, Net.logged]

example : CleanOpens (SOp.run goodNet.logged) [.open, .write [7], .flush, .close, .open, .write [8], .flush]
    (Sock.new (some ([1], [1]))) (0, []) := by
  simp only [CleanOpens]; decide

/-! ## C35 stream transport after Close -/

/-- The calls on a closed transport. -/
def closedAnswers (N : Streams ν) (s : IOStream) (n : ν) : Prop :=
  (∀ k, ∃ m, s.read N k n = (([], some ⟨.transport, 1, m⟩), n)) ∧
  (∀ bs, ∃ m, s.write N bs n = (.ok (0, some ⟨.transport, 1, m⟩), n)) ∧
  (∃ m, s.flush N n = (some ⟨.transport, 1, m⟩, n))

/-- C35 in full: after `Close` every call answers `NOT_OPEN` and leaves the
streams alone. -/
def C35_statement : Prop :=
  ∀ (ν : Type) (N : Streams ν) (s : IOStream) (n n' : ν),
    closedAnswers N (s.close N n).2.1 n'

/-- A stream that can be closed, for both directions; it counts the calls. -/
def closableStreams : Streams Nat where
  readR _ n := (([], some ioEOF), n + 1)
  writeW bs n := ((bs.length, none), n + 1)
  closeR := some fun n => (none, n + 1)
  closeW := some fun n => (none, n + 1)
  flushW := none

/-- C35 does not hold for a shared closable stream. -/
theorem C35_violated : ¬ C35_statement := by
  intro h
  obtain ⟨m, h1⟩ := (h Nat closableStreams IOStream.newRW 0 0).2.1 [1]
  have e : (IOStream.newRW.close closableStreams 0).2.1.write closableStreams [1] 0 = (.ok (1, none), 1) := by rfl
  rw [e] at h1
  simp at h1

/-- The violation in general: after `Close` a shared closable stream keeps its
writer, and `Write` goes on to the closed stream. -/
theorem C35_shared_stream_still_written (N : Streams ν) (f : ν → GoErr × ν) (hf : N.closeR = some f) (n n' : ν) (bs : Bytes)
    (h : ¬ ((N.writeW bs n').1.1 = 0 ∧ (N.writeW bs n').1.2 = none)) :
    (IOStream.newRW.close N n).2.1 = ⟨false, true, true⟩ ∧
    (IOStream.newRW.close N n).2.1.write N bs n' =
      (.ok ((N.writeW bs n').1.1, transportFromOsError (N.writeW bs n').1.2), (N.writeW bs n').2) := by
  have h1 : (IOStream.newRW.close N n).2.1 = ⟨false, true, true⟩ := by
    simp [IOStream.close, IOStream.newRW, hf]
  refine ⟨h1, ?_⟩
  rw [h1]
  simp only [IOStream.write, if_true]
  rw [if_neg h]

theorem closedAnswers_of (N : Streams ν) (s : IOStream) (n : ν) (hr : s.reader = false) (hw : s.writer = false) :
    closedAnswers N s n := by
  refine ⟨fun k => ⟨ascii "Cannot read from null inputStream", ?_⟩,
    fun bs => ⟨ascii "Cannot write to null outputStream", ?_⟩, ascii "Cannot flush null outputStream", ?_⟩
  · simp only [IOStream.read, hr, Bool.false_eq_true, if_false, newTTransportException, NOT_OPEN]
  · simp only [IOStream.write, hw, Bool.false_eq_true, if_false, newTTransportException, NOT_OPEN]
  · simp only [IOStream.flush, hw, Bool.false_eq_true, if_false, newTTransportException, NOT_OPEN]

/-- C35, what remains: everything but a shared stream with a `Close` method; and
for that one, after a second `Close`.  `Read` after `Close` is always refused.
Missing: `Write` and `Flush` after one `Close` of a shared closable stream. -/
theorem C35_closed_stream_partial (N : Streams ν) (s : IOStream) (n n1 n2 : ν) :
    (¬ (s.isReadWriter = true ∧ s.reader = true ∧ N.closeR.isSome) → closedAnswers N (s.close N n).2.1 n1) ∧
    (∀ k, ∃ m, (s.close N n).2.1.read N k n1 = (([], some ⟨.transport, 1, m⟩), n1)) ∧
    closedAnswers N ((s.close N n).2.1.close N n1).2.1 n2 := by
  have hr : ∀ (s : IOStream) n, (s.close N n).2.1.reader = false := by
    intro s n
    simp only [IOStream.close]
    repeat' split
    all_goals rfl
  have hw : ∀ (s : IOStream) n, ¬ (s.isReadWriter = true ∧ s.reader = true ∧ N.closeR.isSome) →
      (s.close N n).2.1.writer = false := by
    intro s n h
    rcases s with ⟨r, w, rw'⟩
    rcases N with ⟨_, _, _ | _, _, _⟩ <;> cases r <;> cases w <;> cases rw' <;> simp [IOStream.close] at h ⊢
  refine ⟨fun h => closedAnswers_of N _ _ (hr s n) (hw s n h), ?_, ?_⟩
  · intro k
    exact ⟨ascii "Cannot read from null inputStream", by simp only [IOStream.read, hr, Bool.false_eq_true, if_false, newTTransportException, NOT_OPEN]⟩
  · apply closedAnswers_of _ _ _ (hr _ _)
    apply hw
    rw [hr]
    simp

/-- All constructors but the shared one satisfy C35 with any streams. -/
theorem C35_constructors (N : Streams ν) (n n1 : ν) (s : IOStream)
    (hs : s ∈ [IOStream.newDefault, IOStream.newR, IOStream.newW, IOStream.newRAndW]) :
    closedAnswers N (s.close N n).2.1 n1 := by
  apply (C35_closed_stream_partial N s n n1 n1).1
  simp only [List.mem_cons, List.not_mem_nil, or_false] at hs
  rcases hs with rfl | rfl | rfl | rfl <;> simp [IOStream.newDefault, IOStream.newR, IOStream.newW, IOStream.newRAndW]

example : (IOStream.newRW.write bufferStreams [1] []) = (.ok (1, none), [1]) := by rfl
example : closableStreams.closeR.isSome = true ∧ (closableStreams.writeW [1] 0).1.1 ≠ 0 := by decide

end Thrift
