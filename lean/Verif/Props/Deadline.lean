import Verif.Model.Deadline
/-!
# Timeouts of sockets (C148–C151)
-/

namespace Thrift

/-- A call at time `now` that the other side answers after `delay` (`none`: never)
observes the timeout: if there is one, the call ends in time, and it is not cut off
before.  `r` is what the call gave and when, `good` says that it is the answer of
the other side. -/
def Observes (timeout : Int) (now : Nat) (delay : Option Nat) (r : Res α × Nat) (good : α → Prop) : Prop :=
  (0 < timeout → ∃ a, r.1 = .ok a ∧ r.2 ≤ now + timeout.toNat) ∧
  ∀ d, delay = some d → timeout ≤ 0 ∨ d ≤ timeout.toNat → ∃ a, r.1 = .ok a ∧ good a ∧ r.2 = now + d

theorem await_none (now d : Nat) (answer late : α) : await none now (some d) answer late = .ok (answer, now + d) := rfl

theorem await_some (t now : Nat) (delay : Option Nat) (answer late : α) : await (some t) now delay answer late =
    if t ≤ now then .ok (late, now)
    else match delay with
      | none => .ok (late, t)
      | some d => if now + d ≤ t then .ok (answer, now + d) else .ok (late, t) := by cases delay <;> rfl

theorem await_observes (timeout : Int) (now : Nat) (delay : Option Nat) (answer late : α) :
    (0 < timeout → ∃ a t, await (if timeout > 0 then some (now + timeout.toNat) else none) now delay answer late = .ok (a, t) ∧
      t ≤ now + timeout.toNat) ∧
    ∀ d, delay = some d → timeout ≤ 0 ∨ d ≤ timeout.toNat →
      await (if timeout > 0 then some (now + timeout.toNat) else none) now delay answer late = .ok (answer, now + d) := by
  constructor
  · intro h
    rw [if_pos h, await_some, if_neg (by omega)]
    cases delay with
    | none => exact ⟨_, _, rfl, Nat.le_refl _⟩
    | some d =>
      simp only
      by_cases hd : now + d ≤ now + timeout.toNat
      · rw [if_pos hd]; exact ⟨_, _, rfl, hd⟩
      · rw [if_neg hd]; exact ⟨_, _, rfl, Nat.le_refl _⟩
  · rintro d rfl h
    by_cases ht : timeout > 0
    · rw [if_pos ht, await_some, if_neg (by omega)]
      simp only
      rw [if_pos (by omega)]
    · rw [if_neg ht, await_none]

/-! ## C148: reads -/

/-- C148.  A read of an open socket, of either kind and in any state, observes the
timeout. -/
theorem C148_reads (N : Peer ν) (k : Nat) (s : TSock) (w : Wire ν) (h : s.conn = true) :
    Observes s.timeout w.now (N.read k w.out).1.1 ((s.read N k w).1, (s.read N k w).2.2.now)
      (fun a => a = ((N.read k w.out).1.2.1, transportFromOsError (N.read k w.out).1.2.2)) := by
  obtain ⟨h1, h2⟩ := await_observes s.timeout w.now (N.read k w.out).1.1 (N.read k w.out).1.2 ([], some timedOut)
  unfold TSock.read
  rw [h]
  generalize N.read k w.out = x at *
  rcases x with ⟨⟨delay, bs, e⟩, n⟩
  simp only [Bool.not_true, Bool.false_eq_true, if_false, TSock.deadline]
  refine ⟨fun ht => ?_, fun d hd ht => ?_⟩
  · obtain ⟨⟨bs, e⟩, t, ha, hb⟩ := h1 ht
    rw [ha]
    exact ⟨_, rfl, hb⟩
  · rw [h2 d hd ht]
    exact ⟨_, rfl, rfl, rfl⟩

/-- A peer that answers a read after ten nanoseconds, takes writes at once and never
answers a dial. -/
def lazyPeer : Peer Unit where
  dial _ _ _ := ((none, .ok ()), ())
  read _ _ := ((some 10, ([1], none)), ())
  write bs _ := ((some 0, (bs.length, none)), ())

/-- The hypotheses of `C148_reads` are met; a timeout of five cuts the read off, one of
twenty does not. -/
example := C148_reads lazyPeer 1 ⟨true, none, 5, []⟩ ⟨0, none, none, ()⟩ rfl
example : ((⟨true, none, 5, []⟩ : TSock).read lazyPeer 1 ⟨0, none, none, ()⟩).1 = .ok ([], transportFromOsError (some timedOut)) := rfl
example : ((⟨true, none, 20, []⟩ : TSock).read lazyPeer 1 ⟨0, none, none, ()⟩).1 = .ok ([1], none) := rfl

/-! ## C149: writes -/

/-- What is done with a socket. -/
inductive TimedOp
  | setTimeout (t : Int)
  | open'
  | read (k : Nat)
  | write (bs : Bytes)
  | flush
  | wait (d : Nat)

/-- The calls one after the other; `none` if one panics or does not come back. -/
def runTimed (N : Peer ν) : List TimedOp → TSock → Wire ν → Option (TSock × Wire ν)
  | [], s, w => some (s, w)
  | .setTimeout t :: ops, s, w => runTimed N ops (s.setTimeout t) w
  | .open' :: ops, s, w => match s.open' N w with
    | (.ok _, s, w) => runTimed N ops s w
    | _ => none
  | .read k :: ops, s, w => match s.read N k w with
    | (.ok _, s, w) => runTimed N ops s w
    | _ => none
  | .write bs :: ops, s, w => runTimed N ops (s.write bs w).2.1 (s.write bs w).2.2
  | .flush :: ops, s, w => match s.flush N w with
    | (.ok _, s, w) => runTimed N ops s w
    | _ => none
  | .wait d :: ops, s, w => runTimed N ops s (w.wait d)

/-- The peer takes everything that is sent, or never answers. -/
def Peer.Takes (N : Peer ν) : Prop := ∀ bs n, (N.write bs n).1.2 = (bs.length, none)

/-- C149.  Whatever was done with a socket before, sending observes the timeout: `Flush`
of a socket and `Write` of a non-blocking socket end in time, and succeed if the
other side takes the data in time. -/
def C149_statement : Prop :=
  (∀ (ν : Type) (N : Peer ν) (addr : Option (Bytes × Bytes)) (t : Int) (ops : List TimedOp) (w w' : Wire ν) (s : TSock), N.Takes →
    runTimed N ops (TSock.new addr t) w = some (s, w') → s.conn = true → s.writeBuffer ≠ [] →
    Observes s.timeout w'.now (N.write s.writeBuffer w'.out).1.1 ((s.flush N w').1, (s.flush N w').2.2.now) (fun e => e = none)) ∧
  ∀ (ν : Type) (N : Peer ν) (s : TSock) (w : Wire ν) (bs : Bytes), N.Takes → s.conn = true →
    Observes s.timeout w.now (N.write bs w.out).1.1 ((s.nbWrite N bs w).1, (s.nbWrite N bs w).2.2.now) (fun a => a = (bs.length, none))

/-- A peer that takes writes at once. -/
def quickPeer : Peer Unit := { lazyPeer with dial := fun _ _ _ => ((some 0, .ok ()), ()) }
/-- A peer that never takes anything. -/
def deafPeer : Peer Unit := { quickPeer with write := fun bs _ => ((none, (bs.length, none)), ()) }

def someAddr : Option (Bytes × Bytes) := some (ascii "tcp", ascii "x:1")

/-- Flush is cut off if the last write was longer ago than the timeout. -/
theorem C149_violated : ¬ C149_statement := by
  intro h
  have := (h.1 Unit quickPeer someAddr 3 [.open', .write [1], .wait 5] ⟨0, none, none, ()⟩ _ _ (fun _ _ => rfl) rfl rfl nofun).2 0 rfl
    (.inr (by decide))
  obtain ⟨a, h1, h2, _⟩ := this
  subst h2
  exact absurd (Res.ok.inj h1) (by decide)

/-- Flush never ends if there was no timeout at the time of the last write. -/
theorem C149_late_violated : ¬ C149_statement := by
  intro h
  have := (h.1 Unit deafPeer someAddr 0 [.open', .write [1], .setTimeout 3] ⟨0, none, none, ()⟩ _ _ (fun _ _ => rfl) rfl rfl nofun).1
    (by decide)
  obtain ⟨a, h1, _⟩ := this
  exact nomatch h1

theorem send_ok (N : Peer ν) (hN : N.Takes) (bs : Bytes) (w : Wire ν) {a : Nat × GoErr} {t : Nat}
    (h : await w.writeBy w.now (N.write bs w.out).1.1 (bs.length, none) (0, some timedOut) = .ok (a, t)) :
    TSock.send N bs w = (.ok a, { w with now := t, out := (N.write bs w.out).2 }) := by
  unfold TSock.send
  have := hN bs w.out
  rcases hw : N.write bs w.out with ⟨⟨delay, x⟩, n⟩
  rw [hw] at h this
  simp only at this h ⊢
  subst this
  rw [h]

/-- C149 for non-blocking sockets, which send at once, in any state. -/
theorem C149_nonblocking (N : Peer ν) (s : TSock) (w : Wire ν) (bs : Bytes) (hN : N.Takes) (h : s.conn = true) :
    Observes s.timeout w.now (N.write bs w.out).1.1 ((s.nbWrite N bs w).1, (s.nbWrite N bs w).2.2.now) (fun a => a = (bs.length, none)) := by
  obtain ⟨h1, h2⟩ := await_observes s.timeout w.now (N.write bs w.out).1.1 ((bs.length, none) : Nat × GoErr) (0, some timedOut)
  unfold TSock.nbWrite
  rw [h]
  simp only [Bool.not_true, Bool.false_eq_true, if_false]
  refine ⟨fun ht => ?_, fun d hd ht => ?_⟩
  · obtain ⟨a, t, ha, hb⟩ := h1 ht
    rw [send_ok N hN bs { w with writeBy := s.deadline w.now } ha]
    exact ⟨_, rfl, hb⟩
  · rw [send_ok N hN bs { w with writeBy := s.deadline w.now } (h2 d hd ht)]
    exact ⟨_, rfl, rfl, rfl⟩

example := C149_nonblocking quickPeer ⟨true, none, 5, []⟩ ⟨0, none, none, ()⟩ [1, 2] (fun _ _ => rfl) rfl

/-- The flush of a socket with a write deadline. -/
theorem flush_late (N : Peer ν) (hN : N.Takes) (s : TSock) (w : Wire ν) (h : s.conn = true) (hb : s.writeBuffer ≠ []) {a : Nat × GoErr} {t : Nat}
    (ha : await w.writeBy w.now (N.write s.writeBuffer w.out).1.1 (s.writeBuffer.length, none) (0, some timedOut) = .ok (a, t))
    (hd : a = (s.writeBuffer.length, none) ∨ a = (0, some timedOut)) :
    s.flush N w = (.ok (if a.2.isSome then transportFromOsError a.2 else none), { s with writeBuffer := s.writeBuffer.drop a.1 },
      { w with now := t, out := (N.write s.writeBuffer w.out).2 }) := by
  unfold TSock.flush
  rw [h, if_neg (by decide), if_neg (fun h0 => hb (List.eq_nil_of_length_eq_zero h0)), send_ok N hN _ w ha]
  rcases hd with rfl | rfl
  · simp
  · simp

theorem await_two (by_ : Option Nat) (now : Nat) (delay : Option Nat) (answer late : α) {a : α} {t : Nat}
    (h : await by_ now delay answer late = .ok (a, t)) : a = answer ∨ a = late := by
  unfold await at h
  split at h
  · split at h
    · cases h
    · cases h; exact .inl rfl
  · split at h
    · cases h; exact .inr rfl
    · split at h
      · cases h; exact .inr rfl
      · split at h <;> cases h
        · exact .inl rfl
        · exact .inr rfl

/-- C149 for sockets, proved for a flush with nothing but waiting since the last write:
it ends within the timeout counted from that write, or at once, and succeeds if
the other side takes the data within the timeout counted from that write. -/
theorem C149_partial (N : Peer ν) (s : TSock) (w : Wire ν) (bs : Bytes) (d : Nat) (hN : N.Takes) (h : s.conn = true)
    (hb : s.writeBuffer ++ bs ≠ []) {s₁ : TSock} {w₁ : Wire ν} {x : Nat × GoErr} (hw : s.write bs w = (x, s₁, w₁)) :
    (0 < s.timeout → ∃ e s₂ w₂, s₁.flush N (w₁.wait d) = (.ok e, s₂, w₂) ∧ w₂.now ≤ w.now + max d s.timeout.toNat) ∧
    ∀ d', (N.write (s.writeBuffer ++ bs) w.out).1.1 = some d' → (s.timeout ≤ 0 ∨ d + d' ≤ s.timeout.toNat ∧ d < s.timeout.toNat) →
      ∃ s₂ w₂, s₁.flush N (w₁.wait d) = (.ok none, s₂, w₂) ∧ s₂.writeBuffer = [] ∧ w₂.now = w.now + d + d' := by
  unfold TSock.write at hw
  rw [if_neg (by rw [h]; decide)] at hw
  simp only [Prod.mk.injEq] at hw
  obtain ⟨-, rfl, rfl⟩ := hw
  refine ⟨fun ht => ?_, fun d' hd ht => ?_⟩
  · have key : ∃ a t, await (s.deadline w.now) (w.now + d) (N.write (s.writeBuffer ++ bs) w.out).1.1 ((s.writeBuffer ++ bs).length, none)
        ((0, some timedOut) : Nat × GoErr) = .ok (a, t) ∧ t ≤ w.now + max d s.timeout.toNat := by
      unfold TSock.deadline
      rw [if_pos ht, await_some]
      by_cases h1 : w.now + s.timeout.toNat ≤ w.now + d
      · rw [if_pos h1]; exact ⟨_, _, rfl, by omega⟩
      · rw [if_neg h1]
        split
        · exact ⟨_, _, rfl, by omega⟩
        · split
          · exact ⟨_, _, rfl, by omega⟩
          · exact ⟨_, _, rfl, by omega⟩
    obtain ⟨a, t, ha, hb'⟩ := key
    exact ⟨_, _, _, flush_late N hN { s with writeBuffer := s.writeBuffer ++ bs } (Wire.wait d { w with writeBy := s.deadline w.now }) h hb ha
      (await_two _ _ _ _ _ ha), hb'⟩
  · have key : await (s.deadline w.now) (w.now + d) (N.write (s.writeBuffer ++ bs) w.out).1.1 ((s.writeBuffer ++ bs).length, none)
        ((0, some timedOut) : Nat × GoErr) = .ok (((s.writeBuffer ++ bs).length, none), w.now + d + d') := by
      unfold TSock.deadline
      rw [hd]
      by_cases h0 : s.timeout > 0
      · rw [if_pos h0, await_some, if_neg (by omega)]
        simp only
        rw [if_pos (by omega)]
      · rw [if_neg h0, await_none]
    refine ⟨_, _, flush_late N hN { s with writeBuffer := s.writeBuffer ++ bs } (Wire.wait d { w with writeBy := s.deadline w.now }) h hb key
      (.inl rfl), ?_, rfl⟩
    simp

example := C149_partial quickPeer ⟨true, none, 5, []⟩ ⟨0, none, none, ()⟩ [1, 2] 3 (fun _ _ => rfl) rfl nofun rfl

/-! ## C150: dialling -/

/-- C150.  `Open` of a socket that can be opened observes the timeout. -/
def C150_statement_for (open_ : ∀ {ν : Type}, Peer ν → TSock → Wire ν → Res GoErr × TSock × Wire ν) : Prop :=
  ∀ (ν : Type) (N : Peer ν) (s : TSock) (w : Wire ν) (network text : Bytes), s.conn = false → s.addr = some (network, text) →
    network ≠ [] → text ≠ [] →
    Observes s.timeout w.now (N.dial network text w.out).1.1 ((open_ N s w).1, (open_ N s w).2.2.now)
      (fun e => e = match (N.dial network text w.out).1.2 with
        | .ok () => none
        | .error x => some (newTTransportException NOT_OPEN x.msg))

def C150_statement : Prop := C150_statement_for (fun N s w => s.open' N w) ∧ C150_statement_for (fun N s w => s.nbOpen N w)

/-- A non-blocking socket dials without a timeout. -/
theorem C150_violated : ¬ C150_statement := by
  intro h
  have := (h.2 Unit lazyPeer ⟨false, someAddr, 5, []⟩ ⟨0, none, none, ()⟩ _ _ rfl rfl nofun nofun).1 (by decide)
  obtain ⟨a, h1, _⟩ := this
  exact nomatch h1

theorem openBy_dial (N : Peer ν) (by_ : Option Nat) (s : TSock) (w : Wire ν) {network text : Bytes} (hr : s.refuses = none)
    (ha : s.addr = some (network, text)) :
    s.openBy N by_ w = match await by_ w.now (N.dial network text w.out).1.1 (N.dial network text w.out).1.2 (.error timedOut) with
      | .ok (.ok (), t) => (.ok none, { s with conn := true }, ⟨t, none, none, (N.dial network text w.out).2⟩)
      | .ok (.error e, t) => (.ok (some (newTTransportException NOT_OPEN e.msg)), { s with conn := false },
          ⟨t, none, none, (N.dial network text w.out).2⟩)
      | .panic => (.panic, s, { w with out := (N.dial network text w.out).2 })
      | .stuck => (.stuck, s, { w with out := (N.dial network text w.out).2 }) := by
  rcases s with ⟨conn, addr, timeout, buf⟩
  obtain rfl : addr = _ := ha
  unfold TSock.openBy
  rw [hr]
  rfl

/-- C150 for sockets. -/
theorem C150_partial : C150_statement_for (fun N s w => s.open' N w) := by
  intro ν N s w network text hc ha hn ht
  obtain ⟨h1, h2⟩ := await_observes s.timeout w.now (N.dial network text w.out).1.1 (N.dial network text w.out).1.2 (.error timedOut)
  have hr : s.refuses = none := by
    unfold TSock.refuses
    rw [hc, ha]
    simp only [Bool.false_eq_true, if_false]
    rw [if_neg (fun h0 => hn (List.eq_nil_of_length_eq_zero h0)), if_neg (fun h0 => ht (List.eq_nil_of_length_eq_zero h0))]
  show Observes s.timeout w.now _ ((s.open' N w).1, (s.open' N w).2.2.now) _
  rw [TSock.open', openBy_dial N _ s w hr ha, TSock.deadline]
  generalize N.dial network text w.out = x at *
  rcases x with ⟨⟨delay, a⟩, n⟩
  refine ⟨fun ht => ?_, fun d hd ht => ?_⟩
  · obtain ⟨a', t, ha, hb⟩ := h1 ht
    rw [ha]
    rcases a' with e | ⟨⟩ <;> exact ⟨_, rfl, hb⟩
  · rw [h2 d hd ht]
    rcases a with e | ⟨⟩ <;> exact ⟨_, rfl, rfl, rfl⟩

example := C150_partial Unit quickPeer ⟨false, someAddr, 5, []⟩ ⟨0, none, none, ()⟩ _ _ rfl rfl nofun nofun

/-! ## C151: the error of a timeout -/

/-- C151.  When the other side does not answer in time, the error says so: its type is
`TIMED_OUT`. -/
def C151_statement : Prop :=
  ∀ (ν : Type) (N : Peer ν) (k : Nat) (s : TSock) (w : Wire ν), s.conn = true → 0 < s.timeout →
    (∀ d, (N.read k w.out).1.1 = some d → s.timeout.toNat < d) →
    ∃ bs e, (s.read N k w).1 = .ok (bs, some e) ∧ e.kind = .transport ∧ e.code = TIMED_OUT

/-- No timeout is reported as one. -/
theorem C151_violated : ¬ C151_statement := by
  intro h
  obtain ⟨bs, e, h1, _, h3⟩ := h Unit lazyPeer 1 ⟨true, none, 5, []⟩ ⟨0, none, none, ()⟩ rfl (by decide) fun d hd => by
    cases hd; decide
  have h2 : (TSock.read lazyPeer 1 ⟨true, none, 5, []⟩ ⟨0, none, none, ()⟩).1 =
      .ok ([], some (newTTransportException UNKNOWN_TRANSPORT_EXCEPTION (ascii "i/o timeout"))) := rfl
  rw [h2] at h1
  injection h1 with h1
  injection h1 with _ h1
  injection h1 with h1
  subst h1
  exact absurd h3 (by decide)

/-- The read of a socket whose peer is late. -/
theorem C151_partial (N : Peer ν) (k : Nat) (s : TSock) (w : Wire ν) (hc : s.conn = true) (ht : 0 < s.timeout)
    (h : ∀ d, (N.read k w.out).1.1 = some d → s.timeout.toNat < d) :
    (s.read N k w).1 = .ok ([], some (newTTransportException UNKNOWN_TRANSPORT_EXCEPTION (ascii "i/o timeout"))) ∧
      (s.read N k w).2.2.now = w.now + s.timeout.toNat := by
  unfold TSock.read TSock.deadline
  rw [hc, if_pos ht]
  generalize N.read k w.out = x at *
  rcases x with ⟨⟨delay, bs, e⟩, n⟩
  simp only [Bool.not_true, Bool.false_eq_true, if_false]
  rw [await_some, if_neg (by omega)]
  cases delay with
  | none => exact ⟨rfl, rfl⟩
  | some d =>
    have := h d rfl
    simp only
    rw [if_neg (by omega)]
    exact ⟨rfl, rfl⟩

example := C151_partial lazyPeer 1 ⟨true, none, 5, []⟩ ⟨0, none, none, ()⟩ rfl (by decide) fun d hd => by cases hd; decide

end Thrift
