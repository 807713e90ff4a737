import Verif.Lemmas.Frames
import Verif.Lemmas.ReadOnly
/-!
# Properties C24–C32: `ReadAll`, memory buffer, framed transport, chunking
-/

namespace Thrift

/-! ## C24 ReadAll is independent of chunking -/

/-- C24: over every transport that delivers its stream in pieces of its own
choosing, `ReadAll` returns the next `n` bytes and consumes no more. -/
theorem C24_readall_chunking {T : Transport σ} {I : σ → Prop} {view sent : σ → Bytes}
    (F : FaithfulReaderOn T I view sent) (n : Nat) (s : σ) (hI : I s) (hn : n ≤ (view s).length) :
    ∃ s', T.readAll n s = (.ok ⟨(view s).take n, n, none⟩, s') ∧ view s' = (view s).drop n ∧
      sent s' = sent s := by
  obtain ⟨s', h1, h2, _, h3⟩ := F.readAll n s hI
  rw [if_pos hn] at h3
  exact ⟨s', h3, h1, h2⟩

/-- C24 for an explicit list of non-empty chunks. -/
theorem C24_readall_chunks (cs : List Bytes) (h : NonEmptyChunks cs) (n : Nat) (hn : n ≤ cs.flatten.length) :
    ∃ cs', chunked.readAll n cs = (.ok ⟨cs.flatten.take n, n, none⟩, cs') ∧ cs'.flatten = cs.flatten.drop n ∧
      NonEmptyChunks cs' := by
  obtain ⟨s', h1, _, h2, h3⟩ := chunked_reader.readAll n cs h
  rw [if_pos hn] at h3
  exact ⟨s', h3, h1, h2⟩

example : chunked.readAll 4 [[1], [2, 3], [4, 5]] = (.ok ⟨[1, 2, 3, 4], 4, none⟩, [[5]]) := by decide
example : NonEmptyChunks [[1], [2, 3], [4, 5]] := by unfold NonEmptyChunks; decide

/-! ## C25 ReadAll never reports success for missing data -/

/-- C25 in full: over any reader that `io.Reader` allows. -/
def C25_statement : Prop :=
  ∀ (σ : Type) (T : Transport σ) (n : Nat) (s : σ), LegalReader T →
    (∀ bs e s', Arrived T n s bs e s' → bs.length < n) →
    ∃ r s', T.readAll n s = (.ok r, s') ∧ r.err.isSome

/-- A reader that answers every request with no bytes and no error. -/
def idle : Transport Unit where
  read _ s := (.ok ([], none), s)
  write bs s := (.ok (bs.length, none), s)
  flush s := (.ok none, s)

/-- A `Read` that brings neither data nor error ends `ReadAll` without an error,
whatever was asked for and whatever arrived before. -/
theorem C25_idle_read_succeeds {T : Transport σ} (hl : LegalReader T) (n : Nat) (s : σ) (bs : Bytes) (e : GoErr)
    (s' s'' : σ) (ha : Arrived T n s bs e s') (hlt : bs.length < n)
    (hr : T.read (n - bs.length) s' = (.ok ([], none), s'')) :
    T.readAll n s = (.ok ⟨fillBuf n bs, 0, none⟩, s'') := by
  obtain ⟨_, f, hf, heq⟩ := arrived_loop ha hl
  rw [heq]
  match f, hf with
  | 0, hf => omega
  | f + 1, _ => simp [readAllLoop, hlt, hr]

/-- C25 does not hold. -/
theorem C25_violated : ¬ C25_statement := by
  intro h
  have hl : LegalReader idle := fun _ _ => ⟨[], none, (), rfl, by simp⟩
  obtain ⟨r, s', h1, h2⟩ := h Unit idle 1 () hl (by
    intro bs e s' ha
    cases ha with
    | start => decide
    | more _ _ hr hc => simp [idle] at hr; exact absurd hr.1 hc)
  have := C25_idle_read_succeeds hl 1 () [] none () () .start (by decide) rfl
  rw [this] at h1
  simp only [Prod.mk.injEq, Res.ok.injEq] at h1
  rw [← h1.1] at h2
  simp at h2

/-- C25, what remains: readers that never answer a request with neither data nor
error.  Missing: those that do (`C25_idle_read_succeeds`). -/
theorem C25_readall_missing_partial {T : Transport σ} (hl : LegalReader T) (hi : NeverIdle T) (n : Nat) (s : σ)
    (h : ∀ bs e s', Arrived T n s bs e s' → bs.length < n) :
    ∃ r s', T.readAll n s = (.ok r, s') ∧ r.err.isSome := by
  rcases readAll_cases hl n s with ⟨bs, e, s', ha, hn, _⟩ | ⟨bs, e, s', e', s'', ha, hlt, hr, hres⟩
  · have := h bs e s' ha; omega
  · cases e' with
    | none => exact absurd hr (hi _ _ _ (by omega))
    | some x => exact ⟨_, s'', hres, rfl⟩

example : LegalReader memory ∧ NeverIdle memory := by
  constructor
  · intro n s
    by_cases h : s = []
    · exact ⟨[], _, [], by subst h; rfl, by simp⟩
    · exact ⟨s.take n, none, s.drop n, by simp [memory, bufferRead, h], by rw [List.length_take]; omega⟩
  · intro n s s' hn h
    have hn' : n ≠ 0 := by omega
    by_cases h0 : s = []
    · subst h0; simp [memory, bufferRead, hn'] at h
    · simp [memory, bufferRead, h0] at h
      omega

/-! ## C26 ReadAll succeeds when all data arrived -/

/-- C26 in full. -/
def C26_statement : Prop :=
  ∀ (σ : Type) (T : Transport σ) (n : Nat) (s : σ) (bs : Bytes) (e : GoErr) (s' : σ), LegalReader T →
    Arrived T n s bs e s' → bs.length = n → T.readAll n s = (.ok ⟨bs, n, none⟩, s')

/-- What `ReadAll` does when all data arrived: it hands on the error that came
with the last chunk. -/
theorem C26_readall_last_error {T : Transport σ} (hl : LegalReader T) (n : Nat) (s : σ) (bs : Bytes) (e : GoErr)
    (s' : σ) (ha : Arrived T n s bs e s') (hn : bs.length = n) : T.readAll n s = (.ok ⟨bs, n, e⟩, s') :=
  readAll_complete hl ha hn

/-- A reader that delivers its last bytes together with end of file, as
`io.Reader` allows. -/
def eager : Transport Bytes where
  read n s := (.ok (s.take n, if s.length ≤ n then some ioEOF else none), s.drop n)
  write bs s := (.ok (bs.length, none), s)
  flush s := (.ok none, s)

/-- C26 does not hold. -/
theorem C26_violated : ¬ C26_statement := by
  intro h
  have := h Bytes eager 1 [7] [7] (some ioEOF) []
    (fun n s => ⟨_, _, _, rfl, by rw [List.length_take]; omega⟩)
    (.more (bs := []) .start (by decide) rfl (by simp)) rfl
  rw [show eager.readAll 1 [7] = (.ok ⟨[7], 1, some ioEOF⟩, []) from by decide] at this
  simp at this

/-- C26, what remains: the last chunk comes without an error; errors of earlier
chunks are forgotten.  Missing: an error delivered with the last chunk
(`C26_readall_last_error`). -/
theorem C26_readall_complete_partial {T : Transport σ} (hl : LegalReader T) (n : Nat) (s : σ) (bs : Bytes)
    (s' : σ) (ha : Arrived T n s bs none s') (hn : bs.length = n) : T.readAll n s = (.ok ⟨bs, n, none⟩, s') :=
  readAll_complete hl ha hn

example : Arrived memory 2 [1, 2, 3] [1, 2] none [3] := .more (bs := []) .start (by decide) rfl (by simp)

/-! ## C27 memory buffer -/

/-- C27 in full: whatever is put in comes out, in order, nothing lost. -/
def C27_statement : Prop :=
  ∀ (ops : List TOp) (start : Bytes), ∃ answers left, runOps memory ops start = (.ok answers, left) ∧
    start ++ written ops = delivered answers ++ left

/-- A `ReadAll` that asks for more than there is empties the buffer and reports
a count of zero. -/
theorem C27_short_readall (n : Nat) (b : Bytes) (h : b.length < n) :
    memory.readAll n b = (.ok ⟨fillBuf n b, 0, some readAllErr⟩, []) := by
  rw [memory_readAll, if_neg (by omega)]

/-- C27 does not hold: bytes consumed by a failing `ReadAll` are reported
neither as read nor as left. -/
theorem C27_violated : ¬ C27_statement := by
  intro h
  obtain ⟨answers, left, h1, h2⟩ := h [.write [1], .readAll 2] []
  have e : runOps memory [.write [1], .readAll 2] [] =
    (.ok [.wrote 1 none, .gotAll ⟨[1, 0], 0, some readAllErr⟩], []) := by rfl
  rw [e] at h1
  simp only [Prod.mk.injEq, Res.ok.injEq] at h1
  rw [← h1.1, ← h1.2] at h2
  simp [written, delivered] at h2

/-- A read that asks for nothing gets nothing, takes nothing and never fails,
not even at the end of the data. -/
theorem C27_empty_read (b : Bytes) : memory.read 0 b = (.ok ([], none), b) := by
  cases b <;> rfl

/-- After `Close` or `Reset` nothing that was written before can be read: every
read of at least one byte answers `io.EOF`, and what is written afterwards is
read as from a new buffer. -/
theorem C27_close (b bs : Bytes) (n : Nat) (hn : 0 < n) :
    memory.read n (memoryClose b) = (.ok ([], some ioEOF), []) ∧
    memory.readAll bs.length (memory.write bs (memoryClose b)).2 = (.ok ⟨bs, bs.length, none⟩, []) := by
  constructor
  · simp only [memory, bufferRead, memoryClose, if_true, if_neg (show ¬ n = 0 by omega)]
  · show memory.readAll bs.length ([] ++ bs) = _
    rw [List.nil_append, memory_readAll]
    simp

example : (0 : Nat) < 1 ∧ memoryClose [1, 2] ≠ [1, 2] := by decide

/-- No `ReadAll` of the history failed. -/
def allReadAllsSucceed : List TAns → Prop
  | [] => True
  | .gotAll r :: as => r.err = none ∧ allReadAllsSucceed as
  | _ :: as => allReadAllsSucceed as

/-- C27, what remains: histories in which no `ReadAll` fails; all calls return,
writes and flushes always succeed.  Missing: after a failing `ReadAll` the count
hides the consumed bytes. -/
theorem C27_memory_fifo_partial : ∀ (ops : List TOp) (start : Bytes), ∃ answers left,
    runOps memory ops start = (.ok answers, left) ∧
    (allReadAllsSucceed answers → start ++ written ops = delivered answers ++ left) ∧
    (∀ a ∈ answers, ∀ n e, a = .wrote n e → e = none) ∧ ∀ a ∈ answers, ∀ e, a = .flushed e → e = none
  | [], start => ⟨[], start, rfl, fun _ => by simp [written, delivered], by simp, by simp⟩
  | op :: ops, start => by
    cases op with
    | write bs =>
      obtain ⟨as, left, h1, h2, h3, h4⟩ := C27_memory_fifo_partial ops (start ++ bs)
      refine ⟨.wrote bs.length none :: as, left, by simp [runOps, TOp.run, memory, Res.map] at h1 ⊢; rw [h1], ?_, ?_, ?_⟩
      · intro h; simpa [written, delivered] using h2 h
      · intro a ha n e hae
        rcases List.mem_cons.1 ha with h | h
        · subst h; cases hae; rfl
        · exact h3 a h n e hae
      · intro a ha e hae
        rcases List.mem_cons.1 ha with h | h
        · subst h; cases hae
        · exact h4 a h e hae
    | flush =>
      obtain ⟨as, left, h1, h2, h3, h4⟩ := C27_memory_fifo_partial ops start
      refine ⟨.flushed none :: as, left, by simp [runOps, TOp.run, memory, Res.map] at h1 ⊢; rw [h1], ?_, ?_, ?_⟩
      · intro h; simpa [written, delivered] using h2 h
      · intro a ha n e hae
        rcases List.mem_cons.1 ha with h | h
        · subst h; cases hae
        · exact h3 a h n e hae
      · intro a ha e hae
        rcases List.mem_cons.1 ha with h | h
        · subst h; cases hae; rfl
        · exact h4 a h e hae
    | read n =>
      obtain ⟨as, left, h1, h2, h3, h4⟩ := C27_memory_fifo_partial ops (bufferRead n start).2
      refine ⟨.got (bufferRead n start).1.1 (bufferRead n start).1.2 :: as, left, ?_, ?_, ?_, ?_⟩
      · simp [runOps, TOp.run, memory, Res.map] at h1 ⊢; rw [h1]
      · intro h
        have hsplit : start = (bufferRead n start).1.1 ++ (bufferRead n start).2 := by
          unfold bufferRead; split <;> simp_all
        simp only [written, delivered, List.append_assoc]
        rw [← h2 h, ← List.append_assoc, ← hsplit]
      · intro a ha n e hae
        rcases List.mem_cons.1 ha with h | h
        · subst h; cases hae
        · exact h3 a h n e hae
      · intro a ha e hae
        rcases List.mem_cons.1 ha with h | h
        · subst h; cases hae
        · exact h4 a h e hae
    | readAll n =>
      by_cases hn : n ≤ start.length
      · obtain ⟨as, left, h1, h2, h3, h4⟩ := C27_memory_fifo_partial ops (start.drop n)
        refine ⟨.gotAll ⟨start.take n, n, none⟩ :: as, left, ?_, ?_, ?_, ?_⟩
        · simp only [runOps, TOp.run, memory_readAll, if_pos hn, Res.map]; rw [h1]
        · intro h
          simp only [written, delivered, List.append_assoc]
          rw [← h2 h.2, ← List.append_assoc, List.take_of_length_le (by rw [List.length_take]; omega),
            List.take_append_drop]
        · intro a ha n e hae
          rcases List.mem_cons.1 ha with h | h
          · subst h; cases hae
          · exact h3 a h n e hae
        · intro a ha e hae
          rcases List.mem_cons.1 ha with h | h
          · subst h; cases hae
          · exact h4 a h e hae
      · obtain ⟨as, left, h1, h2, h3, h4⟩ := C27_memory_fifo_partial ops []
        refine ⟨.gotAll ⟨fillBuf n start, 0, some readAllErr⟩ :: as, left, ?_, ?_, ?_, ?_⟩
        · simp only [runOps, TOp.run, memory_readAll, if_neg hn, Res.map]; rw [h1]
        · intro h; exact absurd h.1 (by simp)
        · intro a ha n e hae
          rcases List.mem_cons.1 ha with h | h
          · subst h; cases hae
          · exact h3 a h n e hae
        · intro a ha e hae
          rcases List.mem_cons.1 ha with h | h
          · subst h; cases hae
          · exact h4 a h e hae

example : runOps memory [.write [1, 2], .read 1, .write [3], .flush, .readAll 2] [] =
    (.ok [.wrote 2 none, .got [1] none, .wrote 1 none, .flushed none, .gotAll ⟨[2, 3], 2, none⟩], []) := by rfl

/-! ## C28 framed writing -/

section
variable {T : Transport σ} {view sent : σ → Bytes}

theorem framed_write_run (T : Transport σ) (bs : Bytes) (f : Framed) (t : σ) : (framed.over T).write bs (f, t) =
    (.ok (bs.length, none), ({ f with writeBuffer := f.writeBuffer ++ bs }, t)) := rfl

theorem framed_read_run (T : Transport σ) (n : Nat) (f : Framed) (t : σ) :
    (framed.over T).read n (f, t) = splitRes f ((framedRead n).run T f t) := rfl

/-- `Flush` over a transport that accepts everything. -/
theorem framed_flush_run (F : Faithful T view sent) (f : Framed) (t : σ) (hf : Fits f.writeBuffer) :
    ∃ t', (framed.over T).flush (f, t) = (.ok none, ({ f with writeBuffer := [] }, t')) ∧
      sent t' = sent t ++ frame f.writeBuffer ∧ view t' = view t := by
  have hb : putUint32BE (BitVec.ofNat 32 f.writeBuffer.length) = be 4 f.writeBuffer.length := by
    rw [putUint32BE_be, BitVec.toNat_ofNat, Nat.mod_eq_of_lt hf]
  obtain ⟨t1, h1, v1, s1⟩ := F.write (be 4 f.writeBuffer.length) t
  by_cases h0 : f.writeBuffer = []
  · obtain ⟨t2, h2, v2, s2⟩ := F.flush t1
    refine ⟨t2, ?_, ?_, by rw [v2, v1]⟩
    · simp only [Layer.over, framed, framedFlush, P.run_bind, P.run_get, andThen_ok, hb, P.run_write, h1]
      simp [h0, h2, splitRes, transportFromOsError, P.run_tflush]
      rw [← h0]
    · rw [s2, s1, h0]; rfl
  · have hpos : 0 < f.writeBuffer.length := List.length_pos_iff.2 h0
    obtain ⟨t2, h2, v2, s2⟩ := F.write f.writeBuffer t1
    obtain ⟨t3, h3, v3, s3⟩ := F.flush t2
    refine ⟨t3, ?_, ?_, by rw [v3, v2, v1]⟩
    · simp only [Layer.over, framed, framedFlush, P.run_bind, P.run_get, andThen_ok, hb, P.run_write, h1]
      simp [hpos, framedWriteTo, P.run_write, h2, h3, splitRes, transportFromOsError, P.run_tflush]
    · rw [s3, s2, s1, List.append_assoc]; rfl

/-- Any read of a framed transport over a faithful one returns and leaves the
write side alone. -/
theorem framed_read_total {I : σ → Prop} (F : FaithfulReaderOn T I view sent) (n : Nat) (f : Framed) (t : σ) (hI : I t) :
    ∃ bs e rb t', (framed.over T).read n (f, t) = (.ok (bs, e), ({ f with readBuffer := rb }, t')) ∧
      bs.length ≤ n ∧ sent t' = sent t ∧ I t' := by
  have hlen : ∀ b : Bytes, (bufferRead n b).1.1.length ≤ n := by
    intro b; unfold bufferRead; split
    · simp
    · simp only [List.length_take]; omega
  obtain ⟨r, rb, t', h1, h2, h3⟩ := readFrame_total F
    { f with readBuffer := (bufferRead n f.readBuffer).2 } t hI
  obtain ⟨r0, rb0, t0, g1, g2, g3⟩ := readFrame_total F f t hI
  by_cases hb : f.readBuffer = []
  · have := framedRead_empty n f _ hb t t0 r0 g1
    exact ⟨_, _, _, t0, by rw [framed_read_run, this]; rfl, hlen _, g2, g3⟩
  · by_cases hn : 0 < n
    · have := framedRead_buffered (T := T) n hn f hb t
      exact ⟨f.readBuffer.take n, none, _, t, by rw [framed_read_run, this]; rfl, by rw [List.length_take]; omega, rfl, hI⟩
    · have hn0 : n = 0 := by omega
      subst hn0
      have h0 : 0 < f.readBuffer.length := List.length_pos_iff.2 hb
      have hr : (framedRead 0).run T f t = (.ok (((bufferRead 0 rb).1.1, transportFromOsError (bufferRead 0 rb).1.2),
          { f with readBuffer := (bufferRead 0 rb).2 }), t') := by
        simp only [framedRead, P.run_bind, P.run_get, andThen_ok]
        rw [if_pos h0]
        simp only [bufferRead_some 0 _ hb, List.drop_zero] at h1
        simp only [P.run_bind, run_framedBufferRead, andThen_ok, bufferRead_some 0 _ hb, List.drop_zero, List.take_zero]
        rw [if_neg (by simp)]
        simp only [P.run_bind, h1, andThen_ok, run_framedBufferRead, P.run_pure]
      exact ⟨_, _, _, t', by rw [framed_read_run, hr]; rfl, hlen _, h2, h3⟩

end

/-- A successful answer to a write or flush. -/
def TAns.fine : TAns → Prop
  | .wrote _ e => e = none
  | .flushed e => e = none
  | _ => True

/-- C28: for every history of writes, flushes and reads on a framed transport
over a transport that accepts everything, what has reached the underlying
transport is exactly one frame per flush, with the bytes written since the
previous flush; the rest is held back; all writes and flushes succeed. -/
theorem C28_framed_output {T : Transport σ} {view sent : σ → Bytes} (F : Faithful T view sent) :
    ∀ (ops : List TOp) (f : Framed) (t : σ), flushesFit f.writeBuffer ops →
    ∃ answers f' t', runOps (framed.over T) ops (f, t) = (.ok answers, (f', t')) ∧
      sent t' = sent t ++ (framedOutput f.writeBuffer ops).1 ∧
      f'.writeBuffer = (framedOutput f.writeBuffer ops).2 ∧ ∀ a ∈ answers, a.fine
  | [], f, t, _ => ⟨[], f, t, rfl, by simp [framedOutput], rfl, by simp⟩
  | .write bs :: ops, f, t, hfit => by
    obtain ⟨as, f', t', h1, h2, h3, h4⟩ := C28_framed_output F ops { f with writeBuffer := f.writeBuffer ++ bs } t hfit
    refine ⟨.wrote bs.length none :: as, f', t', ?_, h2, h3, ?_⟩
    · simp only [runOps, TOp.run, framed_write_run, Res.map, h1]
    · intro a ha
      rcases List.mem_cons.1 ha with h | h
      · subst h; rfl
      · exact h4 a h
  | .flush :: ops, f, t, hfit => by
    obtain ⟨t1, g1, g2, _⟩ := framed_flush_run F f t hfit.1
    obtain ⟨as, f', t', h1, h2, h3, h4⟩ := C28_framed_output F ops { f with writeBuffer := [] } t1 hfit.2
    refine ⟨.flushed none :: as, f', t', ?_, ?_, h3, ?_⟩
    · simp only [runOps, TOp.run, g1, Res.map, h1]
    · rw [h2, g2]; simp [framedOutput, List.append_assoc]
    · intro a ha
      rcases List.mem_cons.1 ha with h | h
      · subst h; rfl
      · exact h4 a h
  | .read n :: ops, f, t, hfit => by
    obtain ⟨bs, e, rb, t1, g1, _, g2, _⟩ := framed_read_total F.toFaithfulReaderOn n f t trivial
    obtain ⟨as, f', t', h1, h2, h3, h4⟩ := C28_framed_output F ops { f with readBuffer := rb } t1 hfit
    refine ⟨.got bs e :: as, f', t', ?_, ?_, h3, ?_⟩
    · simp only [runOps, TOp.run, g1, Res.map, h1]
    · rw [h2, g2]; rfl
    · intro a ha
      rcases List.mem_cons.1 ha with h | h
      · subst h; trivial
      · exact h4 a h
  | .readAll n :: ops, f, t, hfit => by
    have loop : ∀ fuel (got : Bytes) (err : GoErr) (f : Framed) (t : σ), got.length ≤ n → n ≤ got.length + fuel →
        ∃ r rb t1, readAllLoop (framed.over T).read n fuel got err (f, t) = (.ok r, ({ f with readBuffer := rb }, t1)) ∧
          sent t1 = sent t := by
      intro fuel
      induction fuel with
      | zero =>
        intro got err f t h1 h2
        exact ⟨_, f.readBuffer, t, by rw [readAllLoop, if_neg (by omega)], rfl⟩
      | succ fuel ih =>
        intro got err f t h1 h2
        by_cases hlt : got.length < n
        · obtain ⟨bs, e, rb, t1, g1, gl, g2, _⟩ := framed_read_total F.toFaithfulReaderOn (n - got.length) f t trivial
          by_cases h0 : bs.length = 0
          · exact ⟨_, rb, t1, by
              rw [readAllLoop, if_pos hlt, g1]
              show (if bs.length = 0 then _ else _) = _
              rw [if_pos h0], g2⟩
          · obtain ⟨r, rb', t2, k1, k2⟩ := ih (got ++ bs) e { f with readBuffer := rb } t1
              (by rw [List.length_append]; omega) (by rw [List.length_append]; omega)
            exact ⟨r, rb', t2, by rw [readAllLoop, if_pos hlt, g1]; simp only [h0, if_false]; exact k1, by rw [k2, g2]⟩
        · exact ⟨_, f.readBuffer, t, by rw [readAllLoop, if_neg hlt], rfl⟩
    obtain ⟨r, rb, t1, g1, g2⟩ := loop n [] none f t (by simp) (by simp)
    obtain ⟨as, f', t', h1, h2, h3, h4⟩ := C28_framed_output F ops { f with readBuffer := rb } t1 hfit
    refine ⟨.gotAll r :: as, f', t', ?_, ?_, h3, ?_⟩
    · simp only [runOps, TOp.run, Transport.readAll, g1, Res.map, h1]
    · rw [h2, g2]; rfl
    · intro a ha
      rcases List.mem_cons.1 ha with h | h
      · subst h; trivial
      · exact h4 a h

example : flushesFit [] [.write [1, 2], .write [3], .flush, .write [4]] ∧
    framedOutput [] [.write [1, 2], .write [3], .flush, .write [4]] = ([0, 0, 0, 3, 1, 2, 3], [4]) := by
  refine ⟨⟨?_, trivial⟩, by rfl⟩
  show ([1, 2, 3] : Bytes).length < 2 ^ 32
  decide

/-! ## C29 framed reading -/

/-- What a framed reader still has to deliver. -/
def framedView (view : σ → Bytes) (s : Framed × σ) : Bytes := s.1.readBuffer ++ (peerFrames (view s.2)).flatten

/-- The wire holds whole non-empty frames. -/
def WholeFrames (I : σ → Prop) (view : σ → Bytes) (s : Framed × σ) : Prop :=
  I s.2 ∧ ∃ ps, view s.2 = frames ps ∧ ∀ p ∈ ps, p ≠ [] ∧ Fits p

/-- C29 in full: a list of non-empty payloads, any chunking of the wire, any
sequence of read sizes: the answers, put together, are the first part of the
concatenated payloads, and every read with data left brings some. -/
def C29_statement : Prop :=
  ∀ (σ : Type) (T : Transport σ) (I : σ → Prop) (view sent : σ → Bytes) (t : σ) (ps : List Bytes) (sizes : List Nat),
    FaithfulReaderOn T I view sent → I t → view t = frames ps → (∀ p ∈ ps, p ≠ [] ∧ Fits p) →
    ∃ answers s', runOps (framed.over T) (sizes.map .read) (Framed.new, t) = (.ok answers, s') ∧
      ps.flatten = delivered answers ++ framedView view s'

/-- A framed transport over a faithful reader is again a faithful reader, of the
concatenated payloads.  (This is the form that composes with C24 and C32.) -/
theorem framed_reader {T : Transport σ} {I : σ → Prop} {view sent : σ → Bytes} (F : FaithfulReaderOn T I view sent) :
    FaithfulReaderOn (framed.over T) (WholeFrames I view) (framedView view) (fun s => sent s.2) where
  read_some n s hI hn hv := by
    obtain ⟨f, t⟩ := s
    obtain ⟨hI, ps, hps, hfit⟩ := hI
    by_cases hb : f.readBuffer = []
    · match ps, hps, hfit with
      | [], hps, _ => simp only at hps; simp [framedView, hb, hps, peerFrames_frames] at hv
      | p :: ps, hps, hfit =>
        have hp := hfit p (by simp)
        obtain ⟨t', h1, h2, h3, h4⟩ := readFrame_frame F f t hI p (frames ps) hp.1 hp.2 hps
        have hr := framedRead_empty n f _ hb t t' _ h1
        simp only [bufferRead_some n p hp.1] at hr
        have hpos : 0 < p.length := List.length_pos_iff.2 hp.1
        have hview : framedView view (f, t) = p ++ ps.flatten := by
          simp only [framedView, hb, hps, List.nil_append]
          rw [peerFrames_frames _ (fun q hq => (hfit q hq).2)]
          rfl
        refine ⟨min n p.length, ({ f with readBuffer := p.drop n }, t'), by omega, by omega,
          by rw [hview, List.length_append]; omega, ?_, ?_, h3, h4, ps, h2, fun q hq => hfit q (by simp [hq])⟩
        · rw [hview, List.take_append_of_le_length (by omega)]
          simp only [Layer.over, framed, hr, splitRes, transportFromOsError]
          congr 3
          by_cases h : n ≤ p.length
          · rw [Nat.min_eq_left h]
          · rw [Nat.min_eq_right (by omega), List.take_of_length_le (by omega), List.take_length]
        · rw [hview, List.drop_append_of_le_length (by omega)]
          simp only [framedView, h2]
          rw [peerFrames_frames _ (fun q hq => (hfit q (by simp [hq])).2)]
          congr 1
          by_cases h : n ≤ p.length
          · rw [Nat.min_eq_left h]
          · rw [Nat.min_eq_right (by omega), List.drop_of_length_le (by omega), List.drop_length]
    · have hr := framedRead_buffered (T := T) n hn f hb t
      have hpos : 0 < f.readBuffer.length := List.length_pos_iff.2 hb
      refine ⟨min n f.readBuffer.length, ({ f with readBuffer := f.readBuffer.drop n }, t), by omega, by omega,
        by simp only [framedView, List.length_append]; omega, ?_, ?_, rfl, hI, ps, hps, hfit⟩
      · simp only [framedView]
        rw [List.take_append_of_le_length (by omega)]
        simp only [Layer.over, framed, hr, splitRes]
        congr 3
        by_cases h : n ≤ f.readBuffer.length
        · rw [Nat.min_eq_left h]
        · rw [Nat.min_eq_right (by omega), List.take_of_length_le (by omega), List.take_length]
      · simp only [framedView]
        rw [List.drop_append_of_le_length (by omega)]
        congr 1
        by_cases h : n ≤ f.readBuffer.length
        · rw [Nat.min_eq_left h]
        · rw [Nat.min_eq_right (by omega), List.drop_of_length_le (by omega), List.drop_length]
  read_end n s hI hn hv := by
    obtain ⟨f, t⟩ := s
    obtain ⟨hI, ps, hps, hfit⟩ := hI
    have hfl : (peerFrames (view t)).flatten = [] := by
      simp only [framedView] at hv; exact (List.append_eq_nil_iff.1 hv).2
    have hb : f.readBuffer = [] := by
      simp only [framedView] at hv; exact (List.append_eq_nil_iff.1 hv).1
    simp only at hps hI
    rw [hps, peerFrames_frames _ (fun q hq => (hfit q hq).2)] at hfl
    match ps, hps, hfit, hfl with
    | p :: ps, _, hfit, hfl =>
      simp at hfl
      exact absurd hfl.1 (hfit p (by simp)).1
    | [], hps, hfit, _ =>
      obtain ⟨t', h1, h2, h3, h4⟩ := readFrame_end F f t hI hps
      have hr := framedRead_empty n f f hb t t' _ h1
      have hn' : n ≠ 0 := by omega
      simp only [hb, bufferRead, if_true, hn', if_false] at hr
      refine ⟨newTTransportException END_OF_FILE ioEOF.msg, ({ f with readBuffer := [] }, t'), ?_, ?_, h3, h4, [], h2, hfit⟩
      · simp only [Layer.over, framed, hr, splitRes]; rfl
      · simp only [framedView, h2]; rfl

/-- A read of size zero while data is buffered throws the buffered data away
and loads the next frame. -/
theorem C29_zero_read_loses {T : Transport σ} {I : σ → Prop} {view sent : σ → Bytes}
    (F : FaithfulReaderOn T I view sent) (f : Framed) (t : σ) (hI : I t) (p w : Bytes) (hp : p ≠ []) (hfit : Fits p)
    (hv : view t = frame p ++ w) (hb : f.readBuffer ≠ []) :
    ∃ t', (framed.over T).read 0 (f, t) = (.ok ([], none), ({ f with readBuffer := p }, t')) ∧ view t' = w := by
  obtain ⟨t', h1, h2, _⟩ := readFrame_frame F f t hI p w hp hfit hv
  have h0 : 0 < f.readBuffer.length := List.length_pos_iff.2 hb
  refine ⟨t', ?_, h2⟩
  have : (framedRead 0).run T f t = (.ok (([], none), { f with readBuffer := p }), t') := by
    simp only [framedRead, P.run_bind, P.run_get, andThen_ok]
    rw [if_pos h0]
    simp only [P.run_bind, run_framedBufferRead, andThen_ok, bufferRead_some 0 _ hb, List.take_zero, List.drop_zero]
    simp [h1, run_framedBufferRead, bufferRead_some 0 _ hp, transportFromOsError]
  simp only [Layer.over, framed, this, splitRes]

/-- C29 does not hold for read sizes of zero. -/
theorem C29_violated : ¬ C29_statement := by
  intro h
  obtain ⟨answers, s', h1, h2⟩ := h Bytes memory (fun _ => True) id (fun _ => []) (frames [[1, 2], [3]]) [[1, 2], [3]] [1, 0]
    memory_reader trivial rfl (by
      intro p hp; simp at hp; rcases hp with rfl | rfl <;> exact ⟨by simp, by show _ < _; decide⟩)
  have e : runOps (framed.over memory) ([1, 0].map .read) (Framed.new, frames [[1, 2], [3]]) =
      (.ok [.got [1] none, .got [] none], (⟨[], [3]⟩, [])) := by rfl
  rw [e] at h1
  simp only [Prod.mk.injEq, Res.ok.injEq] at h1
  rw [← h1.1, ← h1.2] at h2
  revert h2
  decide

/-- C29, what remains: all read sizes are positive.  The answers, put together,
are the first part of the concatenated payloads; while data is left every read
brings at least one byte and no error, so enough reads obtain everything.
Missing: reads of size zero (`C29_zero_read_loses`). -/
theorem C29_framed_read_partial {T : Transport σ} {I : σ → Prop} {view sent : σ → Bytes}
    (F : FaithfulReaderOn T I view sent) (t : σ) (hI : I t) (ps : List Bytes) (hv : view t = frames ps)
    (hps : ∀ p ∈ ps, p ≠ [] ∧ Fits p) (sizes : List Nat) (hs : ∀ n ∈ sizes, 0 < n) :
    ∃ answers s', runOps (framed.over T) (sizes.map .read) (Framed.new, t) = (.ok answers, s') ∧
      ps.flatten = delivered answers ++ framedView view s' ∧
      (framedView view s' ≠ [] → ∀ a ∈ answers, ∃ bs, a = .got bs none ∧ bs ≠ []) ∧
      (ps.flatten.length ≤ sizes.length → framedView view s' = []) := by
  have G := framed_reader F
  have gen : ∀ (sizes : List Nat) (s : Framed × σ), (∀ n ∈ sizes, 0 < n) → WholeFrames I view s →
      ∃ answers s', runOps (framed.over T) (sizes.map .read) s = (.ok answers, s') ∧
        framedView view s = delivered answers ++ framedView view s' ∧
        (framedView view s' ≠ [] → (∀ a ∈ answers, ∃ bs, a = .got bs none ∧ bs ≠ []) ∧
          sizes.length ≤ (delivered answers).length) := by
    intro sizes
    induction sizes with
    | nil => intro s _ _; exact ⟨[], s, rfl, by simp [delivered], by simp⟩
    | cons n ns ih =>
      intro s hpos hW
      have hn := hpos n (by simp)
      by_cases hv0 : framedView view s = []
      · obtain ⟨e, s1, h1, h2, _, h4⟩ := G.read_end n s hW hn hv0
        obtain ⟨as, s', g1, g2, g3⟩ := ih s1 (fun m hm => hpos m (by simp [hm])) h4
        refine ⟨.got [] (some e) :: as, s', ?_, ?_, ?_⟩
        · simp only [List.map_cons, runOps, TOp.run, h1, Res.map, g1]
        · rw [hv0]; rw [h2] at g2; simpa [delivered] using g2
        · intro h
          rw [h2] at g2
          exact absurd (List.append_eq_nil_iff.1 g2.symm).2 h
      · obtain ⟨k, s1, k0, kn, kv, h1, h2, _, h4⟩ := G.read_some n s hW hn hv0
        obtain ⟨as, s', g1, g2, g3⟩ := ih s1 (fun m hm => hpos m (by simp [hm])) h4
        have hk : ((framedView view s).take k).length = k := by rw [List.length_take]; omega
        refine ⟨.got ((framedView view s).take k) none :: as, s', ?_, ?_, ?_⟩
        · simp only [List.map_cons, runOps, TOp.run, h1, Res.map, g1]
        · simp only [delivered, List.append_assoc]
          rw [← g2, h2, List.take_append_drop]
        · intro h
          obtain ⟨a1, a2⟩ := g3 h
          refine ⟨?_, by simp only [delivered, List.length_append, List.length_cons, hk]; omega⟩
          intro a ha
          rcases List.mem_cons.1 ha with h | h
          · subst h
            refine ⟨_, rfl, fun h0 => ?_⟩
            rw [h0] at hk; simp at hk; omega
          · exact a1 a h
  obtain ⟨as, s', g1, g2, g3⟩ := gen sizes (Framed.new, t) hs ⟨hI, ps, hv, hps⟩
  have hview : framedView view (Framed.new, t) = ps.flatten := by
    simp only [framedView, hv, Framed.new, List.nil_append]
    rw [peerFrames_frames _ (fun q hq => (hps q hq).2)]
  rw [hview] at g2
  refine ⟨as, s', g1, g2, fun h => (g3 h).1, fun hle => ?_⟩
  by_cases h : framedView view s' = []
  · exact h
  · have h5 := (g3 h).2
    have h6 := congrArg List.length g2
    have h7 : 0 < (framedView view s').length := List.length_pos_iff.2 h
    rw [List.length_append] at h6
    omega

example : runOps (framed.over chunked) ([2, 1, 5].map .read) (Framed.new, [[0, 0], [0, 2, 1], [2, 0, 0, 0], [1, 3]]) =
    (.ok [.got [1, 2] none, .got [3] none, .got [] (some ⟨.transport, 4, ioEOF.msg⟩)], (Framed.new, [])) := by decide

/-! ## C30 empty flush -/

/-- C30 in full: as C29, with empty frames among the others; while there is data
left the reader sees no error. -/
def C30_statement : Prop :=
  ∀ (σ : Type) (T : Transport σ) (I : σ → Prop) (view sent : σ → Bytes) (t : σ) (ps : List Bytes) (sizes : List Nat),
    FaithfulReaderOn T I view sent → I t → view t = frames ps → (∀ p ∈ ps, Fits p) → (∀ n ∈ sizes, 0 < n) →
    ∃ answers s', runOps (framed.over T) (sizes.map .read) (Framed.new, t) = (.ok answers, s') ∧
      ps.flatten = delivered answers ++ framedView view s' ∧
      (framedView view s' ≠ [] → ∀ a ∈ answers, ∃ bs, a = .got bs none ∧ bs ≠ [])

/-- An empty `Flush` puts an empty frame on the wire. -/
theorem C30_empty_flush_sends {T : Transport σ} {view sent : σ → Bytes} (F : Faithful T view sent) (rb : Bytes) (t : σ) :
    ∃ t', (framed.over T).flush (⟨[], rb⟩, t) = (.ok none, (⟨[], rb⟩, t')) ∧ sent t' = sent t ++ [0, 0, 0, 0] := by
  obtain ⟨t', h1, h2, _⟩ := framed_flush_run F ⟨[], rb⟩ t (by show 0 < 2 ^ 32; decide)
  have e : frame [] = [0, 0, 0, 0] := by decide
  exact ⟨t', h1, by rw [h2, e]⟩

/-- A reader with an empty buffer that meets an empty frame reports end of
file, whatever follows. -/
theorem C30_empty_frame_is_eof {T : Transport σ} {I : σ → Prop} {view sent : σ → Bytes}
    (F : FaithfulReaderOn T I view sent) (f : Framed) (hb : f.readBuffer = []) (t : σ) (hI : I t) (w : Bytes)
    (hv : view t = [0, 0, 0, 0] ++ w) (n : Nat) (hn : 0 < n) :
    ∃ t', (framed.over T).read n (f, t) = (.ok ([], some (newTTransportException END_OF_FILE (ascii "EOF"))), (f, t')) ∧
      view t' = w ∧ sent t' = sent t ∧ I t' := by
  obtain ⟨t', h1, h2, h3, h4⟩ := readFrame_empty F f t hI w hv
  refine ⟨t', ?_, h2, h3, h4⟩
  rw [framed_read_run, framedRead_empty n f f hb t t' _ h1]
  have hn' : n ≠ 0 := by omega
  obtain ⟨wb, rb⟩ := f
  simp only at hb
  subst hb
  simp [bufferRead, hn', splitRes, transportFromOsError, ioEOF, Err.hasTypeId]

/-- C30 does not hold. -/
theorem C30_violated : ¬ C30_statement := by
  intro h
  obtain ⟨answers, s', h1, _, h3⟩ := h Bytes memory (fun _ => True) id (fun _ => []) (frames [[], [1]]) [[], [1]] [1]
    memory_reader trivial rfl (by
      intro p hp; simp at hp; rcases hp with rfl | rfl <;> (show _ < _; decide)) (by decide)
  have e : runOps (framed.over memory) ([1].map .read) (Framed.new, frames [[], [1]]) =
      (.ok [.got [] (some ⟨.transport, 4, ioEOF.msg⟩)], (⟨[], []⟩, [0, 0, 0, 1, 1])) := by rfl
  rw [e] at h1
  simp only [Prod.mk.injEq, Res.ok.injEq] at h1
  rw [← h1.1, ← h1.2] at h3
  obtain ⟨bs, h4, _⟩ := h3 (by decide) _ (List.mem_singleton.2 rfl)
  simp at h4

/-- C30, what remains: empty frames lose and reorder nothing; a reader that goes
on reading after the spurious end of file gets all the data.  Missing: the
reports of end of file themselves (`C30_empty_frame_is_eof`). -/
theorem C30_empty_flush_partial {T : Transport σ} {I : σ → Prop} {view sent : σ → Bytes}
    (F : FaithfulReaderOn T I view sent) : ∀ (sizes : List Nat) (f : Framed) (t : σ) (ps : List Bytes), I t →
    view t = frames ps → (∀ p ∈ ps, Fits p) → (∀ n ∈ sizes, 0 < n) →
    ∃ answers s', runOps (framed.over T) (sizes.map .read) (f, t) = (.ok answers, s') ∧
      f.readBuffer ++ ps.flatten = delivered answers ++ framedView view s' ∧
      (f.readBuffer.length + (frames ps).length ≤ sizes.length → framedView view s' = [])
  | [], f, t, ps, _, hv, hps, _ => ⟨[], (f, t), rfl, by
      simp [delivered, framedView, hv, peerFrames_frames ps hps], by
      intro h
      simp only [List.length_nil, Nat.le_zero, Nat.add_eq_zero_iff, List.length_eq_zero_iff] at h
      simp [framedView, hv, h.1, h.2, peerFrames, peerFramesAux]⟩
  | n :: ns, f, t, ps, hI, hv, hps, hs => by
    have hn := hs n (by simp)
    have hs' : ∀ m ∈ ns, 0 < m := fun m hm => hs m (by simp [hm])
    by_cases hb : f.readBuffer = []
    · match ps, hv, hps with
      | [], hv, hps =>
        obtain ⟨e, s1, h1, h2, _, h4⟩ := (framed_reader F).read_end n (f, t) ⟨hI, [], hv, by simp⟩ hn
          (by simp [framedView, hb, hv, frames, peerFrames, peerFramesAux])
        obtain ⟨hI1, ps1, hv1, hps1⟩ := h4
        obtain ⟨as, s', g1, g2, g3⟩ := C30_empty_flush_partial F ns s1.1 s1.2 ps1 hI1 hv1 (fun p hp => (hps1 p hp).2) hs'
        have hz : s1.1.readBuffer ++ ps1.flatten = [] := by
          have := h2
          simp only [framedView, hv1] at this
          rwa [peerFrames_frames _ (fun p hp => (hps1 p hp).2)] at this
        rw [hz] at g2
        have g2' := List.append_eq_nil_iff.1 g2.symm
        refine ⟨.got [] (some e) :: as, s', ?_, ?_, fun _ => g2'.2⟩
        · simp only [List.map_cons, runOps, TOp.run, h1, Res.map, g1]
        · simp [delivered, hb, g2'.1, g2'.2]
      | p :: ps, hv, hps =>
        by_cases hp : p = []
        · subst hp
          obtain ⟨t', h1, h2, _, h4⟩ := C30_empty_frame_is_eof F f hb t hI (frames ps) hv n hn
          obtain ⟨as, s', g1, g2, g3⟩ := C30_empty_flush_partial F ns f t' ps h4 h2 (fun q hq => hps q (by simp [hq])) hs'
          refine ⟨.got [] (some (newTTransportException END_OF_FILE (ascii "EOF"))) :: as, s', ?_, ?_, ?_⟩
          · simp only [List.map_cons, runOps, TOp.run, h1, Res.map, g1]
          · simpa [delivered] using g2
          · intro h
            apply g3
            simp only [frames, List.map_cons, List.flatten_cons, List.length_append, frame_length, List.length_cons] at h
            simp only [frames]; omega
        · obtain ⟨t', h1, h2, _, h4⟩ := readFrame_frame F f t hI p (frames ps) hp (hps p (by simp)) hv
          have hr := framedRead_empty n f _ hb t t' _ h1
          simp only [bufferRead_some n p hp] at hr
          obtain ⟨as, s', g1, g2, g3⟩ := C30_empty_flush_partial F ns { f with readBuffer := p.drop n } t' ps h4 h2
            (fun q hq => hps q (by simp [hq])) hs'
          refine ⟨.got (p.take n) none :: as, s', ?_, ?_, ?_⟩
          · simp only [List.map_cons, runOps, TOp.run, framed_read_run, hr, splitRes, Res.map, g1, transportFromOsError_none]
          · simp only [delivered, hb, List.nil_append, List.append_assoc, ← g2, List.flatten_cons]
            rw [← List.append_assoc, List.take_append_drop]
          · intro h
            apply g3
            have : 0 < p.length := List.length_pos_iff.2 hp
            simp only [frames, List.map_cons, List.flatten_cons, List.length_append, frame_length, List.length_cons] at h
            simp only [frames, List.length_drop]; omega
    · have hr := framedRead_buffered (T := T) n hn f hb t
      obtain ⟨as, s', g1, g2, g3⟩ := C30_empty_flush_partial F ns { f with readBuffer := f.readBuffer.drop n } t ps hI hv hps hs'
      refine ⟨.got (f.readBuffer.take n) none :: as, s', ?_, ?_, ?_⟩
      · simp only [List.map_cons, runOps, TOp.run, framed_read_run, hr, splitRes, Res.map, g1]
      · simp only [delivered, List.append_assoc, ← g2]
        rw [← List.append_assoc, List.take_append_drop]
      · intro h
        apply g3
        have : 0 < f.readBuffer.length := List.length_pos_iff.2 hb
        simp only [List.length_cons] at h
        simp only [List.length_drop]; omega

example : runOps (framed.over memory) ([5, 5].map .read) (Framed.new, frames [[], [1, 2]]) =
    (.ok [.got [] (some ⟨.transport, 4, ioEOF.msg⟩), .got [1, 2] none], (Framed.new, [])) := by rfl

/-! ## C31 failed flush -/

/-- The framed transport after one failed and one repeated `Flush`, over a
connection with the given script; and what reached the peer. -/
def flushTwice (payload : Bytes) (script : List (Option Nat)) : Res (List TAns) × (Framed × (Bytes × List (Option Nat))) :=
  runOps (framed.over flaky) [.flush, .flush] (⟨payload, []⟩, ([], script))

/-- C31 in full: when the first `Flush` fails and is repeated, every frame that
the peer sees is the payload. -/
def C31_statement : Prop :=
  ∀ (payload : Bytes) (script : List (Option Nat)) (e1 : Err) (e2 : GoErr) (s : Framed × (Bytes × List (Option Nat))),
    payload ≠ [] → Fits payload → flushTwice payload script = (.ok [.flushed (some e1), .flushed e2], s) →
    ∀ p ∈ peerFrames s.2.1, p = payload

/-- C31 does not hold: when the payload write fails before its first byte, the
repeated `Flush` sends the length again, and the peer takes it for data. -/
theorem C31_violated : ¬ C31_statement := by
  intro h
  have := h [1, 2, 3, 4] [none, some 0] ⟨.transport, 0, []⟩ none
    (⟨[], []⟩, ([0, 0, 0, 4, 0, 0, 0, 4, 1, 2, 3, 4], [])) (by decide) (by show _ < _; decide) (by rfl) [0, 0, 0, 4] (by decide)
  revert this
  decide

/-- More generally, whenever the payload write fails, what the peer has received
after repeating `Flush` is the length, the accepted part of the payload, the
length of the rest, and the rest. -/
theorem C31_retry_wire (payload : Bytes) (k : Nat) (hk : k < payload.length) (hp : Fits payload) :
    flushTwice payload [none, some k] =
      (.ok [.flushed (some ⟨.transport, 0, []⟩), .flushed none],
        (Framed.new, (be 4 payload.length ++ payload.take k ++ frame (payload.drop k), []))) := by
  have hb : putUint32BE (BitVec.ofNat 32 payload.length) = be 4 payload.length := by
    rw [putUint32BE_be, BitVec.toNat_ofNat, Nat.mod_eq_of_lt hp]
  have hp' : payload.length - k < 2 ^ 32 := Nat.lt_of_le_of_lt (Nat.sub_le _ _) hp
  have hb' : putUint32BE (BitVec.ofNat 32 (payload.length - k)) = be 4 (payload.length - k) := by
    rw [putUint32BE_be, BitVec.toNat_ofNat, Nat.mod_eq_of_lt hp']
  have h1 : framedFlush.run flaky ⟨payload, []⟩ ([], [none, some k]) =
      (.ok (some ⟨.transport, 0, []⟩, ⟨payload.drop k, []⟩), (be 4 payload.length ++ payload.take k, [])) := by
    have hpos : 0 < payload.length := by omega
    simp only [framedFlush, P.run_bind, P.run_get, andThen_ok, hb]
    simp [P.run_write, flaky, framedWriteTo, hpos, transportFromOsError, Err.hasTypeId, newTTransportException,
      UNKNOWN_TRANSPORT_EXCEPTION, Nat.min_eq_left (Nat.le_of_lt hk)]
  have h2 : framedFlush.run flaky ⟨payload.drop k, []⟩ (be 4 payload.length ++ payload.take k, []) =
      (.ok (none, Framed.new), (be 4 payload.length ++ payload.take k ++ frame (payload.drop k), [])) := by
    have hpos : 0 < payload.length - k := by omega
    simp only [framedFlush, P.run_bind, P.run_get, andThen_ok, List.length_drop, hb']
    simp [P.run_write, flaky, framedWriteTo, hpos, transportFromOsError, frame, Framed.new, P.run_tflush]
    omega
  have l1 : (framed.over flaky).flush (⟨payload, []⟩, ([], [none, some k])) =
      (.ok (some ⟨.transport, 0, []⟩), (⟨payload.drop k, []⟩, (be 4 payload.length ++ payload.take k, []))) := by
    simp only [Layer.over, framed, h1, splitRes]
  have l2 : (framed.over flaky).flush (⟨payload.drop k, []⟩, (be 4 payload.length ++ payload.take k, [])) =
      (.ok none, (Framed.new, (be 4 payload.length ++ payload.take k ++ frame (payload.drop k), []))) := by
    simp only [Layer.over, framed, h2, splitRes]
  simp only [flushTwice, runOps, TOp.run, l1, l2, Res.map]

/-- A `Flush` whose payload write is cut short without an error is reported as
failed, over any transport; the accepted part of the payload is gone and the
rest is kept for the next `Flush`. -/
theorem C31_short_write {T : Transport σ} (payload : Bytes) (old : Bytes) (t t1 t2 : σ) (n k : Nat) (hk : k < payload.length)
    (h1 : T.write (putUint32BE (BitVec.ofNat 32 payload.length)) t = (.ok (n, none), t1))
    (h2 : T.write payload t1 = (.ok (k, none), t2)) :
    ∃ e, (framed.over T).flush (⟨payload, old⟩, t) = (.ok (some e), (⟨payload.drop k, old⟩, t2)) := by
  have hpos : 0 < payload.length := by omega
  have hne : k ≠ payload.length := by omega
  refine ⟨⟨.transport, 0, ascii "short write"⟩, ?_⟩
  have h : framedFlush.run T ⟨payload, old⟩ t =
      (.ok (some ⟨.transport, 0, ascii "short write"⟩, ⟨payload.drop k, old⟩), t2) := by
    simp only [framedFlush, P.run_bind, P.run_get, andThen_ok]
    simp [P.run_write, h1, h2, framedWriteTo, hpos, hne, transportFromOsError, Err.hasTypeId, newTTransportException,
      UNKNOWN_TRANSPORT_EXCEPTION]
  simp only [Layer.over, framed, h, splitRes]

/-- A transport that takes at most four bytes at a time meets the hypotheses. -/
example : ∃ (T : Transport Bytes) (t1 t2 : Bytes) (n k : Nat), k < ([1, 2, 3, 4, 5] : Bytes).length ∧
    T.write (putUint32BE 5) [] = (.ok (n, none), t1) ∧ T.write [1, 2, 3, 4, 5] t1 = (.ok (k, none), t2) :=
  ⟨{ memory with write := fun bs b => (.ok (min bs.length 4, none), b ++ bs.take 4) }, _, _, _, _,
    show 4 < 5 by decide, rfl, rfl⟩

/-- C31, what remains: (1) without a retry the peer never sees a wrong frame, at
whatever point the `Flush` fails; (2) if the very first write fails without
accepting a byte, the retry sends exactly the intended frame.  Missing: a retry
after part of the frame has been accepted (`C31_retry_wire`). -/
theorem C31_failed_flush_partial (payload : Bytes) (hp : Fits payload) (h0 : payload ≠ []) :
    (∀ script, ∃ e s, (framed.over flaky).flush (⟨payload, []⟩, ([], script)) = (.ok e, s) ∧
      ∃ k, s.2.1 = (frame payload).take k ∧ (e = none → s.2.1 = frame payload) ∧
        ∀ p ∈ peerFrames s.2.1, p = payload) ∧
    ∃ e1, flushTwice payload [some 0] =
      (.ok [.flushed (some e1), .flushed none], (Framed.new, (frame payload, []))) := by
  have hb : putUint32BE (BitVec.ofNat 32 payload.length) = be 4 payload.length := by
    rw [putUint32BE_be, BitVec.toNat_ofNat, Nat.mod_eq_of_lt hp]
  have hpos : 0 < payload.length := List.length_pos_iff.2 h0
  have peer : ∀ k, ∀ p ∈ peerFrames ((frame payload).take k), p = payload := by
    intro k p hm
    by_cases hk : k < (frame payload).length
    · rw [peerFrames_cut payload hp k hk] at hm; simp at hm
    · rw [List.take_of_length_le (by omega)] at hm
      have := peerFrames_frames [payload] (by simpa using hp)
      simp only [frames, List.map_cons, List.map_nil, List.flatten_cons, List.flatten_nil, List.append_nil] at this
      rw [this] at hm
      simpa using hm
  have run : ∀ script, ∃ e f o sc, framedFlush.run flaky ⟨payload, []⟩ ([], script) = (.ok (e, f), (o, sc)) ∧
      ∃ k, o = (frame payload).take k ∧ (e = none → o = frame payload) := by
    intro script
    have hcut : ∀ k, (be 4 payload.length).take k = (frame payload).take (min k 4) := by
      intro k
      have : (be 4 payload.length).take k = (be 4 payload.length).take (min k 4) := by
        by_cases h : k ≤ 4
        · rw [Nat.min_eq_left h]
        · rw [Nat.min_eq_right (by omega), List.take_of_length_le (by simp; omega), List.take_of_length_le (by simp)]
      rw [this, frame, List.take_append_of_le_length (by simp; omega)]
    have hcut2 : ∀ k, be 4 payload.length ++ payload.take k = (frame payload).take (4 + k) := by
      intro k
      rw [frame, List.take_append, List.take_of_length_le (l := be 4 _) (by rw [be_length]; omega), be_length, Nat.add_sub_cancel_left]
    have tail : ∀ sc, ∃ e f o sc', (P.run flaky (do
          if payload.length > 0 then
            let (_, err) ← framedWriteTo
            if err.isSome then return transportFromOsError err
          let err ← P.tflush
          return transportFromOsError err) (⟨payload, []⟩ : Framed) (be 4 payload.length, sc)) = (.ok (e, f), (o, sc')) ∧
        ∃ k, o = (frame payload).take k ∧ (e = none → o = frame payload) := by
      intro sc
      match sc with
      | [] => exact ⟨none, ⟨[], []⟩, frame payload, [], by
          simp [hpos, framedWriteTo, P.run_write, flaky, transportFromOsError, frame, P.run_tflush],
          _, (List.take_length).symm, fun _ => rfl⟩
      | none :: r => exact ⟨none, ⟨[], []⟩, frame payload, r, by
          simp [hpos, framedWriteTo, P.run_write, flaky, transportFromOsError, frame, P.run_tflush],
          _, (List.take_length).symm, fun _ => rfl⟩
      | some k :: r => exact ⟨some ⟨.transport, 0, []⟩, ⟨payload.drop (min k payload.length), []⟩,
          be 4 payload.length ++ payload.take k, r, by
          simp [hpos, framedWriteTo, P.run_write, flaky, transportFromOsError, Err.hasTypeId, newTTransportException,
            UNKNOWN_TRANSPORT_EXCEPTION], 4 + k, hcut2 k, fun h => by simp at h⟩
    match script with
    | [] =>
      obtain ⟨e, f, o, sc', h1, h2⟩ := tail []
      refine ⟨e, f, o, sc', ?_, h2⟩
      rw [← h1]
      simp only [framedFlush, P.run_bind, P.run_get, andThen_ok, hb]
      simp [P.run_write, flaky]
    | none :: r =>
      obtain ⟨e, f, o, sc', h1, h2⟩ := tail r
      refine ⟨e, f, o, sc', ?_, h2⟩
      rw [← h1]
      simp only [framedFlush, P.run_bind, P.run_get, andThen_ok, hb]
      simp [P.run_write, flaky]
    | some k :: r =>
      refine ⟨some ⟨.transport, 0, []⟩, ⟨payload, []⟩, (be 4 payload.length).take k, r, ?_, _, hcut k, fun h => by simp at h⟩
      simp only [framedFlush, P.run_bind, P.run_get, andThen_ok, hb]
      simp [P.run_write, flaky, transportFromOsError, Err.hasTypeId, newTTransportException, UNKNOWN_TRANSPORT_EXCEPTION]
  constructor
  · intro script
    obtain ⟨e, f, o, sc, h1, k, h2, h3⟩ := run script
    refine ⟨e, (f, (o, sc)), by simp only [Layer.over, framed, h1, splitRes], k, h2, h3, ?_⟩
    show ∀ p ∈ peerFrames o, p = payload
    rw [h2]
    exact peer k
  · refine ⟨⟨.transport, 0, []⟩, ?_⟩
    have h1 : framedFlush.run flaky ⟨payload, []⟩ ([], [some 0]) =
        (.ok (some ⟨.transport, 0, []⟩, ⟨payload, []⟩), ([], [])) := by
      simp only [framedFlush, P.run_bind, P.run_get, andThen_ok, hb]
      simp [P.run_write, flaky, transportFromOsError, Err.hasTypeId, newTTransportException, UNKNOWN_TRANSPORT_EXCEPTION]
    have h2 : framedFlush.run flaky ⟨payload, []⟩ ([], []) = (.ok (none, Framed.new), (frame payload, [])) := by
      simp only [framedFlush, P.run_bind, P.run_get, andThen_ok, hb]
      simp [P.run_write, flaky, framedWriteTo, hpos, transportFromOsError, frame, Framed.new, P.run_tflush]
    have l1 : (framed.over flaky).flush (⟨payload, []⟩, ([], [some 0])) =
        (.ok (some ⟨.transport, 0, []⟩), (⟨payload, []⟩, ([], []))) := by
      simp only [Layer.over, framed, h1, splitRes]
    have l2 : (framed.over flaky).flush (⟨payload, []⟩, ([], [])) = (.ok none, (Framed.new, (frame payload, []))) := by
      simp only [Layer.over, framed, h2, splitRes]
    simp only [flushTwice, runOps, TOp.run, l1, l2, Res.map]

example : flushTwice [1, 2, 3, 4] [none, some 0] =
    (.ok [.flushed (some ⟨.transport, 0, []⟩), .flushed none], (Framed.new, ([0, 0, 0, 4, 0, 0, 0, 4, 1, 2, 3, 4], []))) := by rfl

/-! ## C32 decoding does not depend on chunking -/

/-- A read call of a protocol, `Skip`, or reading a whole value. -/
inductive ReadCall where
  | messageBegin | messageEnd | structBegin | structEnd | fieldBegin | fieldEnd | mapBegin | mapEnd
  | listBegin | listEnd | setBegin | setEnd | bool | byte | i16 | i32 | i64 | double | string | binary
  | skip (t : TType) | value (t : TType)
  deriving DecidableEq, Repr

/-- What it returned. -/
inductive ReadAnswer where
  | message (x : (Bytes × TMessageType × I32) × GoErr)
  | done (e : GoErr)
  | field (x : (Bytes × TType × I16) × GoErr)
  | map (x : (TType × TType × Int) × GoErr)
  | list (x : (TType × Int) × GoErr)
  | bool (x : Bool × GoErr)
  | byte (x : Byte × GoErr)
  | i16 (x : I16 × GoErr)
  | i32 (x : I32 × GoErr)
  | i64 (x : I64 × GoErr)
  | bytes (x : Bytes × GoErr)
  | value (x : Val × GoErr)

/-- One call. -/
def ReadCall.call (p : Proto π) (msd : Int) (fuel : Nat) : ReadCall → P π ReadAnswer
  | .messageBegin => do return .message (← p.readMessageBegin)
  | .messageEnd => do return .done (← p.readMessageEnd)
  | .structBegin => do return .bytes (← p.readStructBegin)
  | .structEnd => do return .done (← p.readStructEnd)
  | .fieldBegin => do return .field (← p.readFieldBegin)
  | .fieldEnd => do return .done (← p.readFieldEnd)
  | .mapBegin => do return .map (← p.readMapBegin)
  | .mapEnd => do return .done (← p.readMapEnd)
  | .listBegin => do return .list (← p.readListBegin)
  | .listEnd => do return .done (← p.readListEnd)
  | .setBegin => do return .list (← p.readSetBegin)
  | .setEnd => do return .done (← p.readSetEnd)
  | .bool => do return .bool (← p.readBool)
  | .byte => do return .byte (← p.readByte)
  | .i16 => do return .i16 (← p.readI16)
  | .i32 => do return .i32 (← p.readI32)
  | .i64 => do return .i64 (← p.readI64)
  | .double => do return .i64 (← p.readDouble)
  | .string => do return .bytes (← p.readString)
  | .binary => do return .bytes (← p.readBinary)
  | .skip t => do return .done (← skipDefaultDepth p msd fuel t)
  | .value t => do return .value (← readVal p fuel t)

/-- A sequence of calls. -/
def readCalls (p : Proto π) (msd : Int) (fuel : Nat) : List ReadCall → P π (List ReadAnswer)
  | [] => return []
  | c :: cs => do
    let a ← c.call p msd fuel
    let as ← readCalls p msd fuel cs
    return a :: as

theorem Proto.Reads.call {p : Proto π} (R : p.Reads) (msd : Int) (fuel : Nat) (c : ReadCall) :
    (c.call p msd fuel).ReadOnly := by
  have ret : ∀ {α} {m : P π α} (g : α → ReadAnswer), m.ReadOnly → (do return g (← m) : P π ReadAnswer).ReadOnly :=
    fun g h => P.ReadOnly.bind h fun _ => P.ReadOnly.pure _
  cases c with
  | messageBegin => exact ret _ R.messageBegin
  | messageEnd => exact ret _ R.messageEnd
  | structBegin => exact ret _ R.structBegin
  | structEnd => exact ret _ R.structEnd
  | fieldBegin => exact ret _ R.fieldBegin
  | fieldEnd => exact ret _ R.fieldEnd
  | mapBegin => exact ret _ R.mapBegin
  | mapEnd => exact ret _ R.mapEnd
  | listBegin => exact ret _ R.listBegin
  | listEnd => exact ret _ R.listEnd
  | setBegin => exact ret _ R.setBegin
  | setEnd => exact ret _ R.setEnd
  | bool => exact ret _ R.bool
  | byte => exact ret _ R.byte
  | i16 => exact ret _ R.i16
  | i32 => exact ret _ R.i32
  | i64 => exact ret _ R.i64
  | double => exact ret _ R.double
  | string => exact ret _ R.string
  | binary => exact ret _ R.binary
  | skip t => exact ret _ (R.skip msd fuel t msd)
  | value t => exact ret _ (R.readVal fuel t)

theorem Proto.Reads.calls {p : Proto π} (R : p.Reads) (msd : Int) (fuel : Nat) : ∀ cs : List ReadCall,
    (readCalls p msd fuel cs).ReadOnly
  | [] => .pure _
  | c :: cs => .bind (R.call msd fuel c) fun _ => .bind (Proto.Reads.calls R msd fuel cs) fun _ => .pure _

/-- C32: every sequence of read calls of the binary or compact protocol gives
the same answers, errors, panics and protocol state over a stream delivered in
arbitrary pieces as over one memory buffer with the same bytes, and leaves the
same bytes unread. -/
theorem C32_chunk_independence {T : Transport σ} {I : σ → Prop} {view sent : σ → Bytes}
    (F : FaithfulReaderOn T I view sent) (t : σ) (hI : I t) (msd : Int) (fuel : Nat) (calls : List ReadCall) :
    (∀ s : Bin, ∃ t', (readCalls binary msd fuel calls).run T s t =
        (((readCalls binary msd fuel calls).run memory s (view t)).1, t') ∧
      view t' = ((readCalls binary msd fuel calls).run memory s (view t)).2 ∧ sent t' = sent t) ∧
    (∀ (f : Nat) (s : Cmp), ∃ t', (readCalls (compact f) msd fuel calls).run T s t =
        (((readCalls (compact f) msd fuel calls).run memory s (view t)).1, t') ∧
      view t' = ((readCalls (compact f) msd fuel calls).run memory s (view t)).2 ∧ sent t' = sent t) := by
  constructor
  · intro s
    obtain ⟨t', h1, h2, h3, _⟩ := F.simulateP _ (binary_reads.calls msd fuel calls) s t hI
    exact ⟨t', h1, h2, h3⟩
  · intro f s
    obtain ⟨t', h1, h2, h3, _⟩ := F.simulateP _ ((compact_reads f).calls msd fuel calls) s t hI
    exact ⟨t', h1, h2, h3⟩

/-- C32 through a framed transport: however the sender cut the stream into
non-empty frames and the network into chunks. -/
theorem C32_chunk_independence_framed {T : Transport σ} {I : σ → Prop} {view sent : σ → Bytes}
    (F : FaithfulReaderOn T I view sent) (t : σ) (hI : I t) (ps : List Bytes) (hv : view t = frames ps)
    (hps : ∀ p ∈ ps, p ≠ [] ∧ Fits p) (msd : Int) (fuel : Nat) (calls : List ReadCall) :
    (∀ s : Bin, ((readCalls binary msd fuel calls).run (framed.over T) s (Framed.new, t)).1 =
        ((readCalls binary msd fuel calls).run memory s ps.flatten).1) ∧
    (∀ (f : Nat) (s : Cmp), ((readCalls (compact f) msd fuel calls).run (framed.over T) s (Framed.new, t)).1 =
        ((readCalls (compact f) msd fuel calls).run memory s ps.flatten).1) := by
  have hview : framedView view (Framed.new, t) = ps.flatten := by
    simp only [framedView, hv, Framed.new, List.nil_append]
    rw [peerFrames_frames _ (fun q hq => (hps q hq).2)]
  obtain ⟨h1, h2⟩ := C32_chunk_independence (framed_reader F) (Framed.new, t) ⟨hI, ps, hv, hps⟩ msd fuel calls
  rw [hview] at h1 h2
  constructor
  · intro s
    obtain ⟨t', h, _⟩ := h1 s
    rw [h]
  · intro f s
    obtain ⟨t', h, _⟩ := h2 f s
    rw [h]

/-- C32 for any reading code whatsoever (for instance a struct reader that
decides by what it has read). -/
theorem C32_chunk_independence_any {T : Transport σ} {I : σ → Prop} {view sent : σ → Bytes}
    (F : FaithfulReaderOn T I view sent) (m : P π α) (hm : m.ReadOnly) (s : π) (t : σ) (hI : I t) :
    ∃ t', m.run T s t = ((m.run memory s (view t)).1, t') ∧ view t' = (m.run memory s (view t)).2 := by
  obtain ⟨t', h1, h2, _⟩ := F.simulateP m hm s t hI
  exact ⟨t', h1, h2⟩

example : NonEmptyChunks [[0, 0], [0], [0, 7, 9]] := by unfold NonEmptyChunks; decide
example : FaithfulReaderOn chunked NonEmptyChunks List.flatten (fun _ => []) := chunked_reader

end Thrift
