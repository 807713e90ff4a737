import Verif.Model.Lifecycle
import Verif.Spec.Socket
/-!
# Open, closed, opened again, and made by factories: C157–C161
-/

namespace Thrift

/-! ## C157: `IsOpen` tells the truth -/

/-- After an `Open` without error the transport says that it is open, after a
`Close` without error it says that it is not, and one that says so answers
`NOT_OPEN` to every `Read`, `Write` and `Flush` and stays as it is. -/
def Truthful (L : Life σ) : Prop := ∀ s,
  ((L.opens s).1 = none → L.isOpen (L.opens s).2 = true) ∧
  ((L.closes s).1 = none → L.isOpen (L.closes s).2 = false) ∧
  (L.isOpen s = false →
    (∀ k, ∃ m, L.io.read k s = (.ok ([], some ⟨.transport, 1, m⟩), s)) ∧
    (∀ bs, ∃ m, L.io.write bs s = (.ok (0, some ⟨.transport, 1, m⟩), s)) ∧
    ∃ m, L.io.flush s = (.ok (some ⟨.transport, 1, m⟩), s))

/-- C157.  Every transport of the library tells the truth about being open. -/
def C157_statement : Prop :=
  (∀ (κ ν : Type) (N : Net κ ν), Truthful (socketLife N) ∧ Truthful (nonblockingLife N)) ∧
  (∀ (ν : Type) (N : Streams ν), Truthful (streamLife N)) ∧
  (∀ (ρ ν : Type) (W : Web ρ ν), Truthful (httpLife W)) ∧
  Truthful memoryLife ∧
  ∀ (σ : Type) (L : Life σ), Truthful L → Truthful (framedLife L)

/-- C157 for both kinds of sockets. -/
theorem C157_partial (N : Net κ ν) : Truthful (socketLife N) ∧ Truthful (nonblockingLife N) := by
  refine ⟨fun s => ⟨fun h => ?_, fun h => ?_, fun h => ?_⟩, fun s => ⟨fun h => ?_, fun h => ?_, fun h => ?_⟩⟩
  all_goals rcases s with ⟨⟨c, addr, wb⟩, n⟩
  · revert h
    simp only [socketLife, Sock.open]
    cases c with
    | some c => simp [Sock.isOpen]
    | none =>
      rw [if_neg (by simp [Sock.isOpen])]
      rcases addr with _ | ⟨a, b⟩
      · simp
      · simp only
        split
        · simp
        · split
          · simp
          · rcases N.dial a b n with ⟨_ | _, _⟩ <;> simp [Sock.isOpen]
  · revert h
    simp only [socketLife, Sock.close]
    cases c with
    | none => simp [Sock.isOpen]
    | some c => simp only; rcases N.close c n with ⟨_ | _, _⟩ <;> simp [Sock.isOpen]
  · cases c with
    | some c => simp [socketLife, Sock.isOpen] at h
    | none => exact ⟨fun k => ⟨_, rfl⟩, fun bs => ⟨_, rfl⟩, ⟨_, rfl⟩⟩
  · revert h
    simp only [nonblockingLife, Sock.open]
    cases c with
    | some c => simp [Sock.isOpen]
    | none =>
      rw [if_neg (by simp [Sock.isOpen])]
      rcases addr with _ | ⟨a, b⟩
      · simp
      · simp only
        split
        · simp
        · split
          · simp
          · rcases N.dial a b n with ⟨_ | _, _⟩ <;> simp [Sock.isOpen]
  · revert h
    simp only [nonblockingLife, Sock.close]
    cases c with
    | none => simp [Sock.isOpen]
    | some c => simp only; rcases N.close c n with ⟨_ | _, _⟩ <;> simp [Sock.isOpen]
  · cases c with
    | some c => simp [nonblockingLife, Sock.isOpen] at h
    | none => exact ⟨fun k => ⟨_, rfl⟩, fun bs => ⟨_, rfl⟩, ⟨_, rfl⟩⟩

/-- A closed memory buffer says that it is open. -/
theorem C157_violated : ¬ C157_statement := fun h => absurd ((h.2.2.2.1 []).2.1 rfl) (by decide)

/-- So does a closed stream transport, for any streams. -/
theorem C157_stream_violated (N : Streams ν) (n : ν) : ¬ Truthful (streamLife N) := by
  intro h
  exact absurd ((h (IOStream.newDefault, n)).2.1 rfl) (by simp [streamLife, IOStream.isOpen])

/-- A closed HTTP client is "opened" without error and still says that it is not open. -/
theorem C157_http_violated (W : Web ρ ν) (n : ν) : ¬ Truthful (httpLife W) := by
  intro h
  exact absurd ((h (⟨none, none⟩, n)).1 rfl) (by simp [httpLife, Http.isOpen])

/-- A framed transport around a closed one accepts what is written. -/
theorem C157_framed_violated (L : Life σ) (s : σ) (hs : L.isOpen s = false) : ¬ Truthful (framedLife L) := by
  intro h
  obtain ⟨m, hm⟩ := (((h (Framed.new, s)).2.2 hs).2.1 [])
  exact absurd (congrArg Prod.fst hm) (by intro h; cases h)

example : ¬ Truthful (framedLife (socketLife goodNet)) :=
  C157_framed_violated (socketLife goodNet) (Sock.new none, 0) rfl

/-- What remains for a framed transport: it says what the transport inside says, and a
`Flush` of a closed one fails with `NOT_OPEN`. -/
theorem C157_framed_partial (L : Life σ) (hL : Truthful L) (f : Framed) (s : σ) :
    ((L.opens s).1 = none → (framedLife L).isOpen ((framedLife L).opens (f, s)).2 = true) ∧
    ((L.closes s).1 = none → (framedLife L).isOpen ((framedLife L).closes (f, s)).2 = false) ∧
    ((framedLife L).isOpen (f, s) = false → ∃ m, (framedLife L).io.flush (f, s) = (.ok (some ⟨.transport, 1, m⟩), (f, s))) := by
  refine ⟨(hL s).1, (hL s).2.1, fun h => ?_⟩
  obtain ⟨m, hm⟩ := ((hL s).2.2 h).2.1 (putUint32BE (BitVec.ofNat 32 f.writeBuffer.length))
  refine ⟨m, ?_⟩
  simp [framedLife, Layer.over, framed, framedFlush, P.run, bind, P.bind, P.get, P.write, hm, splitRes, transportFromOsError, pure,
    Prog.bind, Prog.run, P.ret, Err.hasTypeId]

example := (C157_framed_partial (socketLife goodNet) (C157_partial goodNet).1 Framed.new (Sock.new none, 0)).2.2 rfl

/-! ## C158: a socket made from a connection -/

/-- The socket, closed without error, dials the address of the peer when it is opened
again, if the connection told it; if not, `Open` answers `NOT_OPEN` and dials nothing. -/
def Reopens (N : Net κ ν) (s : Sock κ) (remote : Option (Bytes × Bytes)) : Prop :=
  ∀ s' n n', s.close N n = (none, s', n') →
    match remote with
    | some (network, text) =>
      s'.open N n' = match N.dial network text n' with
        | (.ok c, n'') => (none, { s' with conn := some c }, n'')
        | (.error e, n'') => (some ⟨.transport, 1, e.msg⟩, s', n'')
    | none => ∃ m, s'.open N n' = (some ⟨.transport, 1, m⟩, s', n')

/-- C158.  A socket made from a connection can be opened again: both kinds, whatever
addresses the connection has. -/
def C158_statement : Prop :=
  ∀ (κ ν : Type) (N : Net κ ν) (c : κ) (remote self : Option (Bytes × Bytes)), (∀ a b, remote = some (a, b) → a ≠ [] ∧ b ≠ []) →
    Reopens N (Sock.ofConn c remote self) remote ∧ Reopens N (Sock.nbOfConn c remote) remote

theorem reopens_remote (N : Net κ ν) (c : κ) (network text : Bytes) (hn : network ≠ []) (ht : text ≠ []) (wb : Bytes) :
    Reopens N ⟨some c, some (network, text), wb⟩ (some (network, text)) := by
  intro s' n n' h
  rw [Sock.close] at h
  simp only at h
  rcases hc : N.close c n with ⟨_ | e, n₁⟩
  · rw [hc] at h
    simp only [Prod.mk.injEq, true_and] at h
    obtain ⟨rfl, rfl⟩ := h
    rw [Sock.open, if_neg (by simp [Sock.isOpen])]
    simp only
    rw [if_neg (by simpa using hn), if_neg (by simpa using ht)]
    rcases N.dial network text n₁ with ⟨_ | _, _⟩ <;> rfl
  · rw [hc] at h
    simp at h

/-- C158 for connections that know their peer, and in full for the non-blocking socket. -/
theorem C158_partial (N : Net κ ν) (c : κ) (remote : Option (Bytes × Bytes)) (h : ∀ a b, remote = some (a, b) → a ≠ [] ∧ b ≠ []) :
    (∀ self, remote ≠ none → Reopens N (Sock.ofConn c remote self) remote) ∧ Reopens N (Sock.nbOfConn c remote) remote := by
  rcases remote with _ | ⟨a, b⟩
  · refine ⟨fun _ h => absurd rfl h, fun s' n n' hs => ?_⟩
    rw [Sock.nbOfConn, Sock.close] at hs
    simp only at hs
    rcases hc : N.close c n with ⟨_ | e, n₁⟩
    · rw [hc] at hs
      simp only [Prod.mk.injEq, true_and] at hs
      obtain ⟨rfl, rfl⟩ := hs
      exact ⟨_, rfl⟩
    · rw [hc] at hs
      simp at hs
  · obtain ⟨ha, hb⟩ := h a b rfl
    exact ⟨fun _ _ => reopens_remote N c a b ha hb [], reopens_remote N c a b ha hb []⟩

/-- Without an address of the peer, `TSocket` connects to itself. -/
theorem C158_violated : ¬ C158_statement := by
  intro h
  obtain ⟨m, hm⟩ := (h Nat Nat goodNet 0 none (some ([1], [2])) nofun).1 _ 0 0 rfl
  exact absurd (congrArg Prod.fst hm) nofun

example := (C158_partial goodNet 0 (some ([1], [2])) (by simp)).2

/-! ## C159: nothing of the old connection in the new one -/

/-- C159.  When a framed transport is closed and opened again, it is as if it were new:
what was left of the last frame is not read, and what was written and not flushed is
not sent. -/
def C159_statement : Prop :=
  ∀ (σ : Type) (L : Life σ) (s : σ) (k : Nat) (bs : Bytes) (F : Framed × σ),
    F = ((framed.over L.io).read k (Framed.new, s)).2 ∨ F = ((framed.over L.io).write bs (Framed.new, s)).2 →
    ∀ G, (framedLife L).closes F = (none, G) → ∀ H, (framedLife L).opens G = (none, H) →
      (∀ k, (framed.over L.io).read k H = (framed.over L.io).read k (Framed.new, H.2)) ∧
      (framed.over L.io).flush H = (framed.over L.io).flush (Framed.new, H.2)

/-- What is left of a frame is read from the next connection. -/
theorem C159_violated : ¬ C159_statement := by
  intro h
  have := (h Bytes memoryLife [0, 0, 0, 2, 8, 9] 1 [] _ (.inl rfl) _ rfl _ rfl).1 1
  exact absurd (congrArg Prod.fst this) (by decide +kernel)

/-- What was written is sent over the next connection. -/
theorem C159_write_violated : ¬ C159_statement := by
  intro h
  have := (h Bytes memoryLife [] 0 [7] _ (.inr rfl) _ rfl _ rfl).2
  exact absurd (congrArg (fun x => x.2.2) this) (by decide +kernel)

/-- C159 for a transport with nothing left over. -/
theorem C159_partial (L : Life σ) (F G H : Framed × σ) (hr : F.1.readBuffer = []) (hw : F.1.writeBuffer = [])
    (hc : (framedLife L).closes F = (none, G)) (ho : (framedLife L).opens G = (none, H)) : H = (Framed.new, H.2) := by
  rcases F with ⟨⟨w, r⟩, s⟩
  cases hr; cases hw
  have hG : G.1 = Framed.new := by rw [← (Prod.mk.inj hc).2]; rfl
  have hH : H.1 = G.1 := by rw [← (Prod.mk.inj ho).2]
  rw [← hG, ← hH]

example := C159_partial memoryLife (Framed.new, [1]) _ _ rfl rfl rfl rfl

/-! ## C160: what factories make -/

/-- C160.  The transport that a factory makes for a given one reads what could be read
from that one. -/
def C160_statement : Prop :=
  (∀ (σ : Type) (T : Transport σ) (t : σ) (k : Nat), (T.read k (defaultFactory t)).1 = (T.read k t).1) ∧
  (∀ (b : Bytes) (k : Nat), (memory.read k (memoryFactory b)).1 = (memory.read k b).1) ∧
  (∀ (κ ν : Type) (N : Net κ ν) (s : Sock κ) (n : ν) (k : Nat),
    ((nonblockingSocket N).read k (nonblockingFactory s, n)).1 = ((nonblockingSocket N).read k (s, n)).1) ∧
  (∀ (ν : Type) (N : Streams ν) (s : IOStream) (n : ν) (k : Nat), ∃ s', streamFactory s = .ok s' ∧
    ((ioStream N).read k (s', n)).1 = ((ioStream N).read k (s, n)).1) ∧
  ∀ (ρ ν : Type) (W : Web ρ ν) (s : Http ρ) (n : ν) (k : Nat) (s' : Http ρ), httpPostFactory s = some s' →
    ((http W).read k (s', n)).1 = ((http W).read k (s, n)).1

/-- A memory buffer's content is lost. -/
theorem C160_violated : ¬ C160_statement := fun h => absurd (h.2.1 [1] 1) (by decide)

/-- The factory for non-blocking sockets answers a closed socket for every open one: a
server that uses it reads nothing. -/
theorem C160_nonblocking_violated (N : Net κ ν) (s : Sock κ) (n : ν) (k : Nat) :
    ∃ m, (nonblockingSocket N).read k (nonblockingFactory s, n) = (.ok ([], some ⟨.transport, 1, m⟩), (nonblockingFactory s, n)) :=
  ⟨_, rfl⟩

/-- The factory for HTTP clients drops the response. -/
theorem C160_http_violated (W : Web ρ ν) (s s' : Http ρ) (n : ν) (k : Nat) (h : httpPostFactory s = some s') :
    ∃ m, (http W).read k (s', n) = (.ok ([], some ⟨.transport, 1, m⟩), (s', n)) := by
  rcases s with ⟨r, _ | b⟩
  · cases h
  · cases h
    exact ⟨_, rfl⟩

example := C160_http_violated (ν := Unit) ⟨fun n => (.ok (), n), fun _ n => ((0, .ok (200, ())), n), fun _ _ n => (([], none), n),
  fun _ n => (none, n)⟩ ⟨some (), some []⟩ _ () 1 rfl

/-- The factory for streams panics when it is given a closed transport of a single
stream. -/
theorem C160_stream_violated (N : Streams ν) (n : ν) : streamFactory (IOStream.newRW.close N n).2.1 = .panic := by
  rcases N with ⟨_, _, _ | f, g, _⟩ <;> rfl

/-- C160 for the default factory, the framed one around it — the new transport stands
where the given one stands — and the one for streams, when the reader is there. -/
theorem C160_partial :
    (∀ (σ : Type) (t : σ), defaultFactory t = t) ∧
    (∀ (σ : Type) (t : σ), framedFactory defaultFactory t = (Framed.new, t)) ∧
    ∀ (ν : Type) (N : Streams ν) (s : IOStream) (n : ν), s.reader = true ∨ s.isReadWriter = false → ∃ s', streamFactory s = .ok s' ∧
      (∀ k, ((ioStream N).read k (s', n)).1 = ((ioStream N).read k (s, n)).1) ∧
      (s.writer = true ∨ s.isReadWriter = false → ∀ bs, ((ioStream N).write bs (s', n)).1 = ((ioStream N).write bs (s, n)).1) := by
  refine ⟨fun _ _ => rfl, fun _ _ => rfl, fun ν N s n h => ?_⟩
  rcases s with ⟨_ | _, _ | _, _ | _⟩
  all_goals first
    | exact absurd h (by decide)
    | refine ⟨_, rfl, fun k => rfl, fun h bs => ?_⟩
      first
        | rfl
        | exact absurd h (by decide)

example := C160_partial.2.2 Bytes bufferStreams IOStream.newRAndW [] (.inl rfl)

/-- The framed factory asks the inner one first, whatever that is; the factory for
streams answers a transport of the same kind as the given one, for those that the
constructors make. -/
theorem C160_kinds (inner : σ → σ) (t : σ) :
    framedFactory inner t = (Framed.new, inner t) ∧
    ∀ s ∈ [IOStream.newDefault, IOStream.newR, IOStream.newW, IOStream.newRAndW, IOStream.newRW], streamFactory s = .ok s :=
  ⟨rfl, by decide⟩

/-- `Open` of a stream transport, in whatever state, reports nothing and changes
nothing; it does not open a closed one. -/
theorem C160_stream_open (N : Streams ν) (s : IOStream × ν) : (streamLife N).opens s = (none, s) := rfl

end Thrift
