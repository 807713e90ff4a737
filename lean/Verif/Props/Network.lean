import Verif.Spec.Socket
import Verif.Model.IOStream
/-!
# Properties of network failures (C79, C80)
-/

namespace Thrift

/-! ## C79 errors of the connection reach the caller as transport exceptions -/

/-- `e'` is the proper report of the connection's error `e`: there is one exactly
when the connection gave one.  An exception that already has a type is handed on.
Any other error becomes a transport exception with the same text, with type
`END_OF_FILE` for the end of the data. -/
def ReportsNet (e e' : GoErr) : Prop :=
  match e with
  | none => e' = none
  | some x =>
    if x.kind = .transport ∨ x.kind = .protocol then e' = some x
    else ∃ code, e' = some ⟨.transport, code, x.msg⟩ ∧ (x.kind = .eof ↔ code = 4)

/-- The proper report of an attempt to write `bs` of which `m` bytes were
accepted: the connection's error, or a transport exception when bytes are left. -/
def ReportsWrite (len m : Nat) (e e' : GoErr) : Prop :=
  ReportsNet e e' ∧ e.isSome ∨ e = none ∧ (e' = none ↔ m = len) ∧ ∀ x, e' = some x → x.kind = .transport

/-- Reading from an open socket: the connection's bytes, its error reported. -/
def ReadReports (N : Net κ ν) : Prop :=
  ∀ (s : Sock κ) (c : κ) (k : Nat) (n : ν), s.conn = some c →
    ∃ e', s.read N k n = (((N.read c k n).1.1, e'), s, (N.read c k n).2) ∧ ReportsNet (N.read c k n).1.2 e'

/-- Flushing an open `TSocket`: an empty buffer is not written at all; otherwise
the buffer is offered to the connection once, what it accepts leaves the buffer,
and the outcome is reported. -/
def FlushReports (N : Net κ ν) : Prop :=
  ∀ (s : Sock κ) (c : κ) (n : ν), s.conn = some c →
    (s.writeBuffer = [] → s.flush N n = (.ok none, s, n)) ∧
    (s.writeBuffer ≠ [] → (N.write c s.writeBuffer n).1.1 ≤ s.writeBuffer.length →
      ∃ e', s.flush N n = (.ok e', { s with writeBuffer := s.writeBuffer.drop (N.write c s.writeBuffer n).1.1 },
          (N.write c s.writeBuffer n).2) ∧
        ReportsWrite s.writeBuffer.length (N.write c s.writeBuffer n).1.1 (N.write c s.writeBuffer n).1.2 e')

/-- Writing to an open `TNonblockingSocket`: straight to the connection, its
error reported. -/
def NbWriteReports (N : Net κ ν) : Prop :=
  ∀ (s : Sock κ) (c : κ) (bs : Bytes) (n : ν), s.conn = some c →
    ∃ e', s.nbWrite N bs n = (((N.write c bs n).1.1, e'), s, (N.write c bs n).2) ∧
      ReportsNet (N.write c bs n).1.2 e'

/-- Flushing an open `TNonblockingSocket`: the connection is flushed if it can
be, its error reported. -/
def NbFlushReports (N : Net κ ν) : Prop :=
  ∀ (s : Sock κ) (c : κ) (n : ν), s.conn = some c →
    (N.flush = none → s.nbFlush N n = (none, s, n)) ∧
    ∀ f, N.flush = some f → ∃ e', s.nbFlush N n = (e', s, (f c n).2) ∧ ReportsNet (f c n).1 e'

/-- The same three calls on a stream transport with both streams set. -/
def StreamReports (N : Streams ν) (writeOk : Nat → GoErr → Prop) : Prop :=
  ∀ (s : IOStream) (n : ν), s.reader = true → s.writer = true →
    (∀ k, ∃ e', s.read N k n = (((N.readR k n).1.1, e'), (N.readR k n).2) ∧ ReportsNet (N.readR k n).1.2 e') ∧
    (∀ bs, writeOk (N.writeW bs n).1.1 (N.writeW bs n).1.2 →
      ∃ e', s.write N bs n = (.ok ((N.writeW bs n).1.1, e'), (N.writeW bs n).2) ∧ ReportsNet (N.writeW bs n).1.2 e') ∧
    (N.flushW = none → s.flush N n = (none, n)) ∧
    (∀ f, N.flushW = some f → ∃ e', s.flush N n = (e', (f n).2) ∧ ReportsNet (f n).1 e')

/-- C79 in full. -/
def C79_statement : Prop :=
  (∀ (κ ν : Type) (N : Net κ ν), ReadReports N ∧ FlushReports N ∧ NbWriteReports N ∧ NbFlushReports N) ∧
  ∀ (ν : Type) (N : Streams ν), StreamReports N fun _ _ => True

theorem reportsNet_os (e : GoErr) : ReportsNet e (transportFromOsError e) := by
  rcases e with _ | ⟨k, t, m⟩
  · rfl
  · cases k <;>
      simp [ReportsNet, transportFromOsError, Err.hasTypeId, newTTransportException, END_OF_FILE,
        UNKNOWN_TRANSPORT_EXCEPTION]

/-- A network whose `Write` fails. -/
def badWriteNet : Net Nat Nat := { goodNet with write := fun _ _ n => ((0, some ⟨.other, 0, [1]⟩), n) }

/-- C79 does not hold: `Write` of the non-blocking socket answers the
connection's error as it is. -/
theorem C79_violated : ¬ C79_statement := by
  intro h
  obtain ⟨e', hw, hr⟩ := (h.1 Nat Nat badWriteNet).2.2.1 ⟨some 0, none, []⟩ 0 [1] 0 rfl
  have h1 : (((0, some ⟨.other, 0, [1]⟩), ⟨some 0, none, []⟩, 0) : (Nat × GoErr) × Sock Nat × Nat) =
    ((0, e'), ⟨some 0, none, []⟩, 0) := hw
  injection h1 with h1 _
  injection h1 with _ h1
  subst h1
  have h2 : ∃ code, (some ⟨.other, 0, [1]⟩ : GoErr) = some ⟨.transport, code, [1]⟩ ∧
    ((⟨.other, 0, [1]⟩ : Err).kind = .eof ↔ code = 4) := hr
  obtain ⟨code, h3, _⟩ := h2
  injection h3 with h3
  injection h3 with h3
  exact nomatch h3

/-- C79 does not hold for stream transports either: writing nothing to a stream
that accepts it panics. -/
theorem C79_stream_violated : ¬ C79_statement := by
  intro h
  obtain ⟨e', hw, _⟩ := (h.2 Bytes bufferStreams ⟨true, true, true⟩ [] rfl rfl).2.1 [] trivial
  have h1 : ((.panic, []) : Res (Nat × GoErr) × Bytes) = (.ok (0, e'), []) := hw
  injection h1 with h1 _
  exact nomatch h1

theorem readReports (N : Net κ ν) : ReadReports N := by
  intro s c k n hc
  refine ⟨_, ?_, reportsNet_os _⟩
  simp only [Sock.read, hc]

theorem flushReports (N : Net κ ν) : FlushReports N := by
  intro s c n hc
  refine ⟨fun h => by simp [Sock.flush, hc, h], fun h hm => ?_⟩
  have hl : s.writeBuffer.length ≠ 0 := fun h' => h (List.length_eq_zero_iff.mp h')
  rcases N with ⟨d, r, w, cl, f⟩
  simp only [Sock.flush, hc, if_neg hl]
  simp only at hm
  rcases hw : w c s.writeBuffer n with ⟨⟨m, e⟩, n'⟩
  rw [hw] at hm
  simp only at hm
  simp only [if_neg (show ¬ m > s.writeBuffer.length by omega)]
  rcases e with _ | e
  · by_cases hml : m = s.writeBuffer.length
    · refine ⟨none, ?_, Or.inr ⟨rfl, by simp [hml], fun x hx => nomatch hx⟩⟩
      simp [hml]
    · refine ⟨transportFromOsError (some ⟨.other, 0, ascii "short write"⟩), ?_, Or.inr ⟨rfl, ?_, ?_⟩⟩
      · simp [hml]
      · simp [hml, transportFromOsError, Err.hasTypeId]
      · intro x hx
        have : x = newTTransportException UNKNOWN_TRANSPORT_EXCEPTION (ascii "short write") :=
          (Option.some.inj hx).symm
        rw [this]
        rfl
  · exact ⟨transportFromOsError (some e), by simp, Or.inl ⟨reportsNet_os _, rfl⟩⟩

theorem nbFlushReports (N : Net κ ν) : NbFlushReports N := by
  intro s c n hc
  refine ⟨fun h => by simp only [Sock.nbFlush, hc, h], fun f hf => ⟨_, ?_, reportsNet_os _⟩⟩
  simp only [Sock.nbFlush, hc, hf]

/-- C79 for everything but `Write` of the non-blocking socket, which hands on
the connection's own error, and stream writes that accept nothing without an
error. -/
theorem C79_partial :
    (∀ (κ ν : Type) (N : Net κ ν), ReadReports N ∧ FlushReports N ∧ NbFlushReports N ∧
      ∀ (s : Sock κ) (c : κ) (bs : Bytes) (n : ν), s.conn = some c →
        s.nbWrite N bs n = ((N.write c bs n).1, s, (N.write c bs n).2)) ∧
    ∀ (ν : Type) (N : Streams ν), StreamReports N fun m e => ¬ (m = 0 ∧ e = none) := by
  refine ⟨fun κ ν N => ⟨readReports N, flushReports N, nbFlushReports N, ?_⟩, ?_⟩
  · intro s c bs n hc
    simp only [Sock.nbWrite, hc]
  · intro ν N s n hr hw
    refine ⟨fun k => ⟨_, by simp only [IOStream.read, hr, if_true], reportsNet_os _⟩,
      fun bs hok => ⟨_, by simp only [IOStream.write, hw, if_true, if_neg hok], reportsNet_os _⟩,
      fun h => by simp only [IOStream.flush, hw, if_true, h],
      fun f hf => ⟨_, by simp only [IOStream.flush, hw, if_true, hf], reportsNet_os _⟩⟩

/-- An open socket with bytes in its buffer, a connection that accepts some of
them, and an open stream exist. -/
example : (⟨some 0, none, [1, 2]⟩ : Sock Nat).conn = some 0 ∧ (⟨some 0, none, [1, 2]⟩ : Sock Nat).writeBuffer ≠ [] ∧
    (badWriteNet.write 0 [1, 2] 0).1.1 ≤ 2 ∧ IOStream.newRW.reader = true ∧ IOStream.newRW.writer = true := by
  decide

/-! ## C80 Interrupt closes the connection -/

/-- What `Interrupt` must do, given by its result on a socket in state `s`: close
the connection once, answer the outcome, and leave the socket closed if that
succeeded; on a closed socket do nothing. -/
def Interrupts (N : Net κ ν) (interrupt : Sock κ → ν → GoErr × Sock κ × ν) (s : Sock κ) (n : ν) : Prop :=
  match s.conn with
  | none => interrupt s n = (none, s, n)
  | some c =>
    (interrupt s n).1 = (N.close c n).1 ∧ (interrupt s n).2.2 = (N.close c n).2 ∧
    ((N.close c n).1 = none → (interrupt s n).2.1.isOpen = false)

/-- C80 in full: for both kinds of socket. -/
def C80_statement : Prop :=
  ∀ (κ ν : Type) (N : Net κ ν) (s : Sock κ) (n : ν),
    Interrupts N (fun s n => s.interrupt N n) s n ∧ Interrupts N (fun s n => s.nbInterrupt N n) s n

/-- C80 does not hold: a `TSocket` still counts as open. -/
theorem C80_violated : ¬ C80_statement := by
  intro h
  have := (h Nat Nat goodNet ⟨some 0, none, []⟩ 0).1.2.2 rfl
  exact nomatch this

/-- C80 for the non-blocking socket; a `TSocket` closes its connection and
answers the outcome, but keeps it. -/
theorem C80_partial (N : Net κ ν) (s : Sock κ) (n : ν) :
    Interrupts N (fun s n => s.nbInterrupt N n) s n ∧
    (∀ c, s.conn = some c → s.interrupt N n = ((N.close c n).1, s, (N.close c n).2)) ∧
    (s.conn = none → s.interrupt N n = (none, s, n)) := by
  refine ⟨?_, fun c hc => by simp only [Sock.interrupt, hc], fun hc => by simp only [Sock.interrupt, hc]⟩
  rcases s with ⟨_ | c, addr, wb⟩
  · simp [Interrupts, Sock.nbInterrupt, Sock.isOpen]
  · simp only [Interrupts, Sock.nbInterrupt, Sock.isOpen, Sock.close, Option.isSome_some, if_true]
    rcases N.close c n with ⟨_ | e, n'⟩ <;> simp

example : (⟨some 0, none, []⟩ : Sock Nat).conn = some 0 := rfl

end Thrift
