import Verif.Spec.Buffered
/-!
# Buffered stream transports (C152–C156)
-/

namespace Thrift

theorem logged_write (E : StreamEnds ν) (bs : Bytes) (x : ν × Seen) : E.logged.write bs x =
    ((E.write bs x.1).1, ((E.write bs x.1).2, { x.2 with written := x.2.written ++ bs.take (E.write bs x.1).1.1 })) := rfl

theorem logged_read (E : StreamEnds ν) (k : Nat) (x : ν × Seen) : E.logged.read k x =
    ((E.read k x.1).1, ((E.read k x.1).2, { x.2 with read := x.2.read ++ (E.read k x.1).1.1 })) := rfl

namespace Bufio

theorem flush_seen (E : StreamEnds ν) (hE : E.Honest) (b : Bufio) (x : ν × Seen) {e : GoErr} {b' : Bufio} {x' : ν × Seen}
    (h : b.flush E.logged x = (e, b', x')) :
    x'.2.written ++ b'.wbuf = x.2.written ++ b.wbuf ∧ (e = none → b'.wbuf = [] ∧ b'.werr = none) ∧ b'.wbuf.length ≤ b.wbuf.length ∧ x'.2.read = x.2.read ∧ b'.rbuf = b.rbuf ∧ b'.rerr = b.rerr := by
  unfold flush at h
  split at h
  · rename_i h1
    cases h
    exact ⟨rfl, fun h => (by rw [h] at h1; cases h1), Nat.le_refl _, rfl, rfl, rfl⟩
  rename_i hw
  split at h
  · rename_i h1
    cases h
    exact ⟨rfl, fun _ => ⟨List.eq_nil_of_length_eq_zero h1, by simpa using hw⟩, Nat.le_refl _, rfl, rfl, rfl⟩
  have hh := hE b.wbuf x.1
  rw [logged_write] at h
  generalize E.write b.wbuf x.1 = y at *
  rcases y with ⟨⟨m, e'⟩, n⟩
  simp only at h hh
  have hc : ¬ (m < b.wbuf.length ∧ e' = none) := fun h0 => hh.2 h0.1 h0.2
  simp only [if_neg hc] at h
  cases e' with
  | some e' =>
    cases h
    exact ⟨by simp, nofun, by simp, rfl, rfl, rfl⟩
  | none =>
    cases h
    have hm : m = b.wbuf.length := by
      rcases Nat.lt_or_ge m b.wbuf.length with hlt | hge
      · exact absurd rfl (hh.2 hlt)
      · exact Nat.le_antisymm hh.1 hge
    exact ⟨by simp [hm], fun _ => ⟨rfl, by simpa using hw⟩, Nat.zero_le _, rfl, rfl, rfl⟩

theorem direct_seen (E : StreamEnds ν) (hE : E.Honest) (bs : Bytes) (b : Bufio) (hb : b.wbuf = []) (x : ν × Seen) {m : Nat} {e : GoErr} {b' : Bufio} {x' : ν × Seen}
    (h : b.direct E.logged bs x = ((m, e), b', x')) :
    m ≤ bs.length ∧ (e = none → m = bs.length) ∧ x'.2.written = x.2.written ++ bs.take m ∧ b'.wbuf = [] ∧ x'.2.read = x.2.read ∧ b'.rbuf = b.rbuf ∧ b'.rerr = b.rerr := by
  unfold direct at h
  have hh := hE bs x.1
  rw [logged_write] at h
  generalize E.write bs x.1 = y at *
  rcases y with ⟨⟨m', e'⟩, n⟩
  simp only at h hh
  cases h
  refine ⟨hh.1, fun h0 => ?_, rfl, hb, rfl, rfl, rfl⟩
  rcases Nat.lt_or_ge m bs.length with hlt | hge
  · exact absurd h0 (hh.2 hlt)
  · exact Nat.le_antisymm hh.1 hge

theorem write_seen (E : StreamEnds ν) (hE : E.Honest) (bs : Bytes) (b : Bufio) (hb : b.wbuf.length ≤ size) (x : ν × Seen) {m : Nat} {e : GoErr} {b' : Bufio} {x' : ν × Seen}
    (h : b.write E.logged bs x = ((m, e), b', x')) :
    m ≤ bs.length ∧ (e = none → m = bs.length) ∧ x'.2.written ++ b'.wbuf = x.2.written ++ b.wbuf ++ bs.take m ∧ b'.wbuf.length ≤ size ∧
      x'.2.read = x.2.read ∧ b'.rbuf = b.rbuf ∧ b'.rerr = b.rerr := by
  unfold write at h
  split at h
  · rename_i h1
    cases h
    exact ⟨Nat.zero_le _, fun h => (by rw [h] at h1; cases h1), by simp, hb, rfl, rfl, rfl⟩
  split at h
  · cases h
    refine ⟨Nat.le_refl _, fun _ => rfl, by simp, ?_, rfl, rfl, rfl⟩
    simp only [List.length_append]
    omega
  split at h
  · rename_i h0
    have h0 := List.eq_nil_of_length_eq_zero h0
    obtain ⟨h1, h2, h3, h4, h5⟩ := direct_seen E hE bs b h0 x h
    exact ⟨h1, h2, by rw [h3, h4, h0]; simp, by rw [h4]; exact Nat.zero_le _, h5⟩
  rename_i hl h0
  simp only at h
  rcases hf : flush E.logged { b with wbuf := b.wbuf ++ bs.take (size - b.wbuf.length) } x with ⟨_ | e', b₁, x₁⟩
  · rw [hf] at h
    obtain ⟨f1, f2, f0, f3⟩ := flush_seen E hE _ x hf
    obtain ⟨g1, g2⟩ := f2 rfl
    simp only at h
    split at h
    · rename_i hs
      cases h
      refine ⟨Nat.le_refl _, fun _ => rfl, ?_, hs, f3⟩
      rw [g1, List.append_nil] at f1
      simp only [List.take_length]
      rw [f1]
      simp only [List.append_assoc, List.take_append_drop]
    · rcases hd : direct E.logged (bs.drop (size - b.wbuf.length)) b₁ x₁ with ⟨⟨m', e''⟩, b₂, x₂⟩
      rw [hd] at h
      cases h
      obtain ⟨d1, d2, d3, d4, d5, d6⟩ := direct_seen E hE _ b₁ g1 x₁ hd
      rw [g1, List.append_nil] at f1
      simp only [List.length_drop] at d1 d2
      simp only
      refine ⟨by omega, fun he => by have := d2 he; omega, ?_, by rw [d4]; exact Nat.zero_le _, by rw [d5, f3.1], by rw [d6.1, f3.2.1], by rw [d6.2, f3.2.2]⟩
      rw [d3, d4, List.append_nil, f1, List.take_add]
      simp only [List.append_assoc]
  · rw [hf] at h
    cases h
    obtain ⟨f1, f2, f0, f3⟩ := flush_seen E hE _ x hf
    refine ⟨by omega, nofun, ?_, ?_, f3⟩
    · simp only at f1 ⊢
      rw [f1, List.append_assoc]
    · simp only [List.length_append, List.length_take] at f0
      omega

theorem read_seen (E : StreamEnds ν) (k : Nat) (b : Bufio) (x : ν × Seen) {bs : Bytes} {e : GoErr} {b' : Bufio} {x' : ν × Seen}
    (h : b.read E.logged k x = ((bs, e), b', x')) :
    (∀ D, x.2.read = D ++ b.rbuf → x'.2.read = D ++ (bs ++ b'.rbuf)) ∧ (e ≠ none → b'.rbuf = []) ∧ x'.2.written = x.2.written ∧ b'.wbuf = b.wbuf := by
  unfold read at h
  split at h
  · split at h
    · cases h
      exact ⟨fun D h => h, fun h => absurd rfl h, rfl, rfl⟩
    · rename_i h0
      cases h
      exact ⟨fun D h => h, fun _ => List.eq_nil_of_length_eq_zero (Nat.eq_zero_of_not_pos h0), rfl, rfl⟩
  split at h
  · cases h
    exact ⟨fun D h => by rw [h, List.take_append_drop], fun h => absurd rfl h, rfl, rfl⟩
  rename_i h0
  have h0 := List.eq_nil_of_length_eq_zero (Nat.eq_zero_of_not_pos h0)
  split at h
  · cases h
    exact ⟨fun D h => h, fun _ => h0, rfl, rfl⟩
  split at h
  · rw [logged_read] at h
    generalize E.read k x.1 = y at *
    rcases y with ⟨⟨bs', e'⟩, n⟩
    cases h
    refine ⟨fun D h => ?_, fun _ => h0, rfl, rfl⟩
    rw [h0, List.append_nil] at h ⊢
    rw [h]
  · rw [logged_read] at h
    generalize E.read size x.1 = y at *
    rcases y with ⟨⟨bs', e'⟩, n⟩
    simp only at h
    split at h
    · rename_i h1
      cases h
      refine ⟨fun D h => ?_, fun _ => h0, rfl, rfl⟩
      rw [h0, List.append_nil] at h
      simp only [h0, List.append_nil]
      rw [h, List.eq_nil_of_length_eq_zero h1, List.append_nil]
    · cases h
      refine ⟨fun D h => ?_, fun h => absurd rfl h, rfl, rfl⟩
      rw [h0, List.append_nil] at h
      simp only [List.take_append_drop]
      rw [h]

end Bufio

theorem stream_write (N : Streams ν) (bs : Bytes) (s : IOStream) (hw : s.writer = true) (n : ν) {m : Nat} {e : GoErr} {n' : ν}
    (h : N.writeW bs n = ((m, e), n')) : SOp.runStream N (.write bs) s n =
      if m = 0 ∧ e = none then (.panicked, s, n') else (.wrote m (transportFromOsError e), s, n') := by
  rw [SOp.runStream, IOStream.write, hw, if_pos rfl, h]
  by_cases h0 : m = 0 ∧ e = none
  · simp only [if_pos h0]
  · simp only [if_neg h0]

/-- What one call does to the buffers, and what its user is told. -/
theorem op_seen (E : StreamEnds ν) (hE : E.Honest) (op : SOp) (s : IOStream) (b : Bufio) (x : ν × Seen) (hc : op ≠ .close)
    (hb : b.wbuf.length ≤ Bufio.size) {a s' b' x'} (h : op.runStream (buffered E.logged) s (b, x) = (a, s', (b', x'))) :
    s' = s ∧ x'.2.written ++ b'.wbuf = x.2.written ++ b.wbuf ++ writtenBy [(op, a)] ∧ b'.wbuf.length ≤ Bufio.size ∧
      (∀ D, x.2.read = D ++ b.rbuf → x'.2.read = D ++ (readBy [(op, a)] ++ b'.rbuf)) ∧
      (∀ bs e, a = .got bs (some e) → s.reader = true → b'.rbuf = []) ∧
      ∀ bs m, op = .write bs → a = .wrote m none → m = bs.length := by
  cases op with
  | «open» => cases h; exact ⟨rfl, by simp [writtenBy], hb, fun D h => h, nofun, nofun⟩
  | close => exact absurd rfl hc
  | read k =>
    simp only [SOp.runStream, IOStream.read] at h
    cases hr : s.reader
    · rw [hr] at h
      cases h
      exact ⟨rfl, by simp [writtenBy], hb, fun D h => h, nofun, nofun⟩
    · rw [hr] at h
      simp only [if_true, buffered] at h
      rcases hd : b.read E.logged k x with ⟨⟨bs, e⟩, b₁, x₁⟩
      rw [hd] at h
      cases h
      obtain ⟨h1, h2, h3, h4⟩ := Bufio.read_seen E k b x hd
      refine ⟨rfl, by simp [writtenBy, h3, h4], by rw [h4]; exact hb, ?_, ?_, nofun⟩
      · intro D hD
        rw [h1 D hD]
        simp [readBy]
      · intro bs' e' he _
        apply h2
        injection he with _ he
        intro h0
        rw [h0] at he
        cases he
  | write bs =>
    cases hr : s.writer
    · simp only [SOp.runStream, IOStream.write, hr] at h
      cases h
      exact ⟨rfl, by simp [writtenBy], hb, fun D h => h, nofun, nofun⟩
    · rcases hd : b.write E.logged bs x with ⟨⟨m, e⟩, b₁, x₁⟩
      rw [stream_write (buffered E.logged) bs s hr (b, x) hd] at h
      obtain ⟨h1, h2, h3, h4, h5, h6, h7⟩ := Bufio.write_seen E hE bs b hb x hd
      by_cases h0 : m = 0 ∧ e = none
      · rw [if_pos h0] at h
        cases h
        refine ⟨rfl, ?_, h4, ?_, nofun, nofun⟩
        · rw [h3, h0.1]; simp [writtenBy]
        · intro D hD; rw [h5, h6, hD]; rfl
      · rw [if_neg h0] at h
        cases h
        refine ⟨rfl, ?_, h4, ?_, nofun, ?_⟩
        · rw [h3]; simp [writtenBy]
        · intro D hD; rw [h5, h6, hD]; rfl
        · intro bs' m' hb' ha
          cases hb'
          injection ha with ha1 ha2
          subst ha1
          apply h2
          cases e with
          | none => rfl
          | some e =>
            simp only [transportFromOsError] at ha2
            split at ha2
            · cases ha2
            · split at ha2 <;> cases ha2
  | flush =>
    simp only [SOp.runStream, IOStream.flush] at h
    cases hr : s.writer
    · rw [hr] at h
      cases h
      exact ⟨rfl, by simp [writtenBy], hb, fun D h => h, nofun, nofun⟩
    · rw [hr] at h
      simp only [if_true, buffered] at h
      rcases hd : b.flush E.logged x with ⟨e, b₁, x₁⟩
      rw [hd] at h
      cases h
      obtain ⟨h1, _, h3, h4, h5, _⟩ := Bufio.flush_seen E hE b x hd
      refine ⟨rfl, by rw [h1]; simp [writtenBy], Nat.le_trans h3 hb, ?_, nofun, nofun⟩
      intro D hD; rw [h4, h5, hD]; rfl

theorem writtenBy_cons (y : SOp × SAns) (h : List (SOp × SAns)) : writtenBy (y :: h) = writtenBy [y] ++ writtenBy h := by
  rcases y with ⟨op, a⟩
  cases op <;> cases a <;> simp [writtenBy]

theorem readBy_cons (y : SOp × SAns) (h : List (SOp × SAns)) : readBy (y :: h) = readBy [y] ++ readBy h := by
  rcases y with ⟨op, a⟩
  cases op <;> cases a <;> simp [readBy]

/-- The state of a buffered transport agrees with what its user was told. -/
theorem runStream_seen (E : StreamEnds ν) (hE : E.Honest) : ∀ (ops : List SOp) (s : IOStream) (b : Bufio) (x : ν × Seen), .close ∉ ops →
    b.wbuf.length ≤ Bufio.size → ∀ {h s' b' x'}, runStream (buffered E.logged) ops s (b, x) = (h, s', (b', x')) →
    s' = s ∧ x'.2.written ++ b'.wbuf = x.2.written ++ b.wbuf ++ writtenBy h ∧ b'.wbuf.length ≤ Bufio.size ∧
      (∀ D, x.2.read = D ++ b.rbuf → x'.2.read = D ++ (readBy h ++ b'.rbuf)) ∧
      (∀ op bs e, h.getLast? = some (op, .got bs (some e)) → s.reader = true → b'.rbuf = []) ∧
      ∀ bs m, (.write bs, .wrote m none) ∈ h → m = bs.length
  | [], s, b, x, _, hb, h, s', b', x', hr => by
    cases hr
    exact ⟨rfl, by simp [writtenBy], hb, fun D h => h, nofun, nofun⟩
  | op :: ops, s, b, x, hc, hb, h, s', b', x', hr => by
    have hc' : .close ∉ ops := fun h => hc (List.mem_cons_of_mem _ h)
    rw [runStream] at hr
    rcases ho : op.runStream (buffered E.logged) s (b, x) with ⟨a, s₁, b₁, x₁⟩
    rw [ho] at hr
    rcases hrest : runStream (buffered E.logged) ops s₁ (b₁, x₁) with ⟨h₁, s₂, b₂, x₂⟩
    simp only [hrest] at hr
    cases hr
    obtain ⟨rfl, i2, i3, i4, i5, i6⟩ := op_seen E hE op s b x (fun h => hc (h ▸ List.mem_cons_self)) hb ho
    obtain ⟨rfl, j2, j3, j4, j5, j6⟩ := runStream_seen E hE ops s₁ b₁ x₁ hc' i3 hrest
    refine ⟨rfl, ?_, j3, ?_, ?_, ?_⟩
    · rw [j2, i2, writtenBy_cons _ h₁]
      simp only [List.append_assoc]
    · intro D hD
      rw [readBy_cons, j4 (D ++ readBy [(op, a)]) (by rw [i4 D hD, List.append_assoc])]
      simp only [List.append_assoc]
    · intro op' bs e hl hrd
      cases h₁ with
      | cons y h₁ => exact j5 op' bs e (by simpa [List.getLast?_cons] using hl) hrd
      | nil =>
        cases ops with
        | nil =>
          cases hrest
          simp only [List.getLast?_singleton, Option.some.injEq, Prod.mk.injEq] at hl
          exact i5 bs e hl.2 hrd
        | cons _ _ =>
          simp only [runStream, Prod.mk.injEq] at hrest
          cases hrest.1
    · intro bs m hm
      rcases List.mem_cons.1 hm with hm | hm
      · cases hm
        exact i6 bs m rfl rfl
      · exact j6 bs m hm

/-! ## C152: what is written -/

/-- Nothing has happened yet. -/
def Seen.none : Seen := ⟨[], [], 0, 0⟩

/-- C152.  Whatever was done with a buffered stream transport, short of closing it:
the stream has accepted a beginning of what its users were told is written, all
but a buffer full.  After a successful `Flush` it has accepted all of it.  A write
without an error is complete. -/
theorem C152_written (E : StreamEnds ν) (hE : E.Honest) (s : IOStream) (n : ν) (ops : List SOp) (hc : .close ∉ ops) {h s' b' x'}
    (hr : runStream (buffered E.logged) ops s (Bufio.new, (n, Seen.none)) = (h, s', (b', x'))) :
    (∃ rest, writtenBy h = x'.2.written ++ rest ∧ rest.length ≤ 4096) ∧
    (∀ y, s'.flush (buffered E.logged) (b', x') = (none, y) → y.2.2.written = writtenBy h) ∧
    ∀ bs m, (.write bs, .wrote m none) ∈ h → m = bs.length := by
  obtain ⟨rfl, h2, h3, -, -, h6⟩ := runStream_seen E hE ops s Bufio.new (n, Seen.none) hc (by decide) hr
  have h2' : x'.2.written ++ b'.wbuf = writtenBy h := by rw [h2]; rfl
  refine ⟨⟨b'.wbuf, h2'.symm, h3⟩, fun y hy => ?_, h6⟩
  rw [IOStream.flush] at hy
  cases hw : s'.writer
  · rw [hw] at hy
    cases hy
  · rw [hw] at hy
    simp only [if_true, buffered] at hy
    rcases hd : b'.flush E.logged x' with ⟨e, b₁, x₁⟩
    rw [hd] at hy
    simp only [Prod.mk.injEq] at hy
    obtain ⟨hy, rfl⟩ := hy
    obtain ⟨i1, i2, _⟩ := Bufio.flush_seen E hE b' x' hd
    have : e = none := by
      cases e with
      | none => rfl
      | some e =>
        simp only [transportFromOsError] at hy
        split at hy
        · cases hy
        · split at hy <;> cases hy
    rw [(i2 this).1, List.append_nil, h2'] at i1
    exact i1

/-- Streams that give ones and accept everything. -/
def plainEnds : StreamEnds Unit where
  read k n := ((List.replicate k 1, none), n)
  write bs n := ((bs.length, none), n)
  closeR := some fun n => (none, n)
  closeW := some fun n => (none, n)

theorem plainEnds_honest : plainEnds.Honest := fun _ _ => ⟨Nat.le_refl _, fun h => absurd h (Nat.lt_irrefl _)⟩

/-- The hypotheses of `C152_written` are met. -/
example := C152_written plainEnds plainEnds_honest IOStream.newW () [.write [1, 2], .flush, .write [3]] (by decide) rfl
example : ((runStream (buffered plainEnds.logged) [.write [1, 2], .write [3], .flush] IOStream.newW (Bufio.new, ((), Seen.none))).2.2.2.2.written) =
    [1, 2, 3] := by decide

/-! ## C153: what is read -/

/-- C153.  Whatever was done with a buffered stream transport, short of closing it: what
its users have read is a beginning of what was read from the stream, and all of it
when they are told of an error. -/
theorem C153_read (E : StreamEnds ν) (hE : E.Honest) (s : IOStream) (n : ν) (ops : List SOp) (hc : .close ∉ ops) {h s' b' x'}
    (hr : runStream (buffered E.logged) ops s (Bufio.new, (n, Seen.none)) = (h, s', (b', x'))) :
    (∃ rest, x'.2.read = readBy h ++ rest) ∧
    ∀ op bs e, h.getLast? = some (op, .got bs (some e)) → s.reader = true → x'.2.read = readBy h := by
  obtain ⟨rfl, -, -, h4, h5, -⟩ := runStream_seen E hE ops s Bufio.new (n, Seen.none) hc (by decide) hr
  have := h4 [] rfl
  refine ⟨⟨_, this⟩, fun op bs e hl hrd => ?_⟩
  rw [this, h5 op bs e hl hrd]
  simp

/-- A stream that breaks off. -/
def shortEnds : StreamEnds Nat := { plainEnds with
  read := fun k n => if n = 0 then (([1, 2, 3].take k, none), 1) else (([], some ioEOF), n)
  write := fun bs n => ((bs.length, none), n)
  closeR := none, closeW := none }

/-- The hypotheses of `C153_read` are met. -/
example := C153_read shortEnds (fun bs n => ⟨Nat.le_refl _, fun h => absurd h (Nat.lt_irrefl _)⟩) IOStream.newR 0
  [.read 2, .read 2, .read 2] (by decide) rfl
example : (runStream (buffered shortEnds.logged) [.read 2, .read 2, .read 2] IOStream.newR (Bufio.new, (0, Seen.none))).1 =
    [(.read 2, .got [1, 2] none), (.read 2, .got [3] none), (.read 2, .got [] (some ⟨.transport, 4, ascii "EOF"⟩))] := by decide +kernel

/-- An error of writing is final: once a `Write` or a `Flush` of the buffer has
reported one, every later `Write` and `Flush` reports the same and the stream is left
alone. -/
theorem C152_sticky (E : StreamEnds ν) (b b' : Bufio) (n n' m : ν) (bs cs : Bytes) (e : Err)
    (h : (∃ k, b.write E bs n = ((k, some e), b', n')) ∨ b.flush E n = (some e, b', n')) :
    b'.write E cs m = ((0, some e), b', m) ∧ b'.flush E m = (some e, b', m) := by
  have key : b'.werr = some e := by
    have hf (c c' : Bufio) (n n' : ν) (h : c.flush E n = (some e, c', n')) : c'.werr = some e := by
      unfold Bufio.flush at h
      split at h
      · exact (congrArg (fun x => x.2.1.werr) h).symm.trans (congrArg (fun x => x.1) h)
      · split at h
        · exact nomatch congrArg (fun x => x.1) h
        · dsimp only at h
          generalize ht : (if (E.write c.wbuf n).1.1 < c.wbuf.length ∧ (E.write c.wbuf n).1.2 = none then some ⟨.other, 0, ascii "short write"⟩ else (E.write c.wbuf n).1.2 : GoErr) = e' at h
          split at h
          · exact (congrArg (fun x => x.2.1.werr) h).symm.trans (congrArg (fun x => x.1) h)
          · exact nomatch congrArg (fun x => x.1) h
    have hd (c : Bufio) (n : ν) (xs : Bytes) (h : (c.direct E xs n).1.2 = some e) : (c.direct E xs n).2.1.werr = some e := h
    rcases h with ⟨k, h⟩ | h
    · unfold Bufio.write at h
      split at h
      · exact (congrArg (fun x => x.2.1.werr) h).symm.trans (congrArg (fun x => x.1.2) h)
      · split at h
        · exact nomatch congrArg (fun x => x.1.2) h
        · split at h
          · exact (congrArg (fun x => x.2.1.werr) h).symm.trans (hd _ _ _ (congrArg (fun x => x.1.2) h))
          · dsimp only at h
            split at h
            · rename_i hfl
              cases h
              exact hf _ _ _ _ hfl
            · split at h
              · exact nomatch congrArg (fun x => x.1.2) h
              · exact (congrArg (fun x => x.2.1.werr) h).symm.trans (hd _ _ _ (congrArg (fun x => x.1.2) h))
    · exact hf _ _ _ _ h
  constructor
  · rw [Bufio.write, if_pos (by rw [key]; rfl), key]
  · rw [Bufio.flush, if_pos (by rw [key]; rfl), key]

example := C152_sticky { plainEnds with write := fun _ n => ((0, some ⟨.other, 0, ascii "broken"⟩), n) } ⟨[], none, [1], none⟩ _ () _ () [] [2] _
  (.inr rfl)

/-- What there is room for is taken without touching the stream. -/
theorem C152_held (E : StreamEnds ν) (b : Bufio) (n : ν) (bs : Bytes) (h0 : b.werr = none) (h : b.wbuf.length + bs.length ≤ 4096) :
    b.write E bs n = ((bs.length, none), { b with wbuf := b.wbuf ++ bs }, n) := by
  rw [Bufio.write, h0, if_neg (by decide), if_pos (by unfold Bufio.size; omega)]

example := C152_held plainEnds Bufio.new () (List.replicate 4096 0) rfl (Nat.le_of_eq (by rw [List.length_replicate]; rfl))

/-- An error that the stream answers together with bytes is kept until they are read,
and reported once: then the stream is asked again. -/
theorem C153_error (E : StreamEnds ν) (n n' : ν) (bs : Bytes) (e : Err) (k : Nat) (hb : bs ≠ []) (hk : bs.length ≤ k) (h4 : k < 4096)
    (h : E.read 4096 n = ((bs, some e), n')) :
    ∃ b1 b2, Bufio.new.read E k n = ((bs, none), b1, n') ∧ (∀ m, b1.read E k m = (([], some e), b2, m)) ∧
      ∀ m, b2.read E k m = Bufio.new.read E k m := by
  have hl : 0 < bs.length := List.length_pos_iff.2 hb
  refine ⟨⟨[], some e, [], none⟩, Bufio.new, ?_, fun m => ?_, fun m => rfl⟩
  · rw [Bufio.read, if_neg (by omega), if_neg (by decide), if_neg (by decide), if_neg (by unfold Bufio.size; omega), show Bufio.size = 4096 from rfl, h]
    dsimp only
    rw [if_neg (by omega), List.take_of_length_le hk, List.drop_eq_nil_of_le hk]
    rfl
  · rw [Bufio.read, if_neg (by omega)]
    rfl

example := C153_error { plainEnds with read := fun _ n => (([1, 2], some ⟨.eof, 0, []⟩), n) } () _ _ _ 2 (by decide) (by decide) (by decide) rfl

/-! ## C154: closing loses nothing -/

/-- C154.  When `Close` reports no error, the stream has accepted everything that was
written. -/
def C154_statement : Prop :=
  ∀ (ν : Type) (E : StreamEnds ν), E.Honest → ∀ (s : IOStream) (n : ν) (ops : List SOp), .close ∉ ops → ∀ h s' b' x',
    runStream (buffered E.logged) ops s (Bufio.new, (n, Seen.none)) = (h, s', (b', x')) →
    ∀ s'' y, s'.close (buffered E.logged) (b', x') = (none, s'', y) → y.2.2.written = writtenBy h

/-- `Close` drops what is in the buffer. -/
theorem C154_violated : ¬ C154_statement := by
  intro h
  have := h Unit plainEnds plainEnds_honest IOStream.newW () [.write [1]] (by decide) _ _ _ _ rfl _ _ rfl
  revert this
  decide

theorem close_buffered (E : StreamEnds ν) (s : IOStream) (x : Bufio × ν) :
    s.close (buffered E) x = (none, ⟨false, false, s.isReadWriter⟩, x) := by
  rcases s with ⟨r, w, rw'⟩
  cases r <;> cases w <;> cases rw' <;> rfl

/-- C154 for transports that were flushed before. -/
theorem C154_partial (E : StreamEnds ν) (hE : E.Honest) (s : IOStream) (n : ν) (ops : List SOp) (hc : .close ∉ ops) {h s' b' x' s'' y z}
    (hr : runStream (buffered E.logged) ops s (Bufio.new, (n, Seen.none)) = (h, s', (b', x')))
    (hf : s'.flush (buffered E.logged) (b', x') = (none, y)) (hl : s'.close (buffered E.logged) y = (none, s'', z)) :
    z.2.2.written = writtenBy h := by
  rw [close_buffered] at hl
  cases hl
  exact (C152_written E hE s n ops hc hr).2.1 _ hf

example := C154_partial plainEnds plainEnds_honest IOStream.newW () [.write [1, 2]] (by decide) rfl rfl rfl

/-! ## C155: closing closes the streams -/

/-- C155.  `Close` closes the streams that the transport was made of, if they can be
closed, once each: of a transport for reading, one for writing, one for both, and
one for a single stream. -/
def C155_statement : Prop :=
  ∀ (ν : Type) (E : StreamEnds ν) (fr fw : ν → GoErr × ν), E.closeR = some fr → E.closeW = some fw → ∀ (n : ν) (b : Bufio),
    (IOStream.newR.close (buffered E.logged) (b, (n, Seen.none))).2.2.2.2.closedR = 1 ∧
    (IOStream.newW.close (buffered E.logged) (b, (n, Seen.none))).2.2.2.2.closedW = 1 ∧
    (IOStream.newRAndW.close (buffered E.logged) (b, (n, Seen.none))).2.2.2.2.closedR = 1 ∧
    (IOStream.newRAndW.close (buffered E.logged) (b, (n, Seen.none))).2.2.2.2.closedW = 1 ∧
    (IOStream.newRW.close (unbuffered E.logged) (n, Seen.none)).2.2.2.closedR = 1

/-- The buffers hide the `Close` methods. -/
theorem C155_violated : ¬ C155_statement := by
  intro h
  exact absurd (h Unit plainEnds _ _ rfl rfl () Bufio.new).1 (by decide)

/-- None of the three kinds of buffered transports closes anything. -/
theorem C155_never (E : StreamEnds ν) (s : IOStream) (n : ν) (b : Bufio) (l : Seen) :
    (s.close (buffered E.logged) (b, (n, l))).2.2.2.2 = l := by rw [close_buffered]

/-- C155 for transports of a single stream. -/
theorem C155_partial (E : StreamEnds ν) (fr : ν → GoErr × ν) (h : E.closeR = some fr) (n : ν) :
    (IOStream.newRW.close (unbuffered E.logged) (n, Seen.none)).2.2.2 = ⟨[], [], 1, 0⟩ := by
  simp [IOStream.close, IOStream.newRW, unbuffered, StreamEnds.logged, h, Seen.none]

example := C155_partial plainEnds _ rfl ()

/-! ## C156: one direction -/

/-- C156.  A transport made for reading refuses to write, one made for writing refuses to
read, with `NOT_OPEN` and without touching the streams; each does what it was made
for: `Read` asks the reader, `Write` the writer. -/
theorem C156_directions (N : Streams ν) (n : ν) :
    (∀ bs, ∃ m, IOStream.newR.write N bs n = (.ok (0, some ⟨.transport, 1, m⟩), n)) ∧
    (∃ m, IOStream.newR.flush N n = (some ⟨.transport, 1, m⟩, n)) ∧
    (∀ k, ∃ m, IOStream.newW.read N k n = (([], some ⟨.transport, 1, m⟩), n)) ∧
    (∀ s ∈ [IOStream.newR, IOStream.newRAndW, IOStream.newRW], ∀ k,
      s.read N k n = (((N.readR k n).1.1, transportFromOsError (N.readR k n).1.2), (N.readR k n).2)) ∧
    ∀ s ∈ [IOStream.newW, IOStream.newRAndW, IOStream.newRW], ∀ bs, bs ≠ [] → (N.writeW bs n).1.1 ≠ 0 →
      s.write N bs n = (.ok ((N.writeW bs n).1.1, transportFromOsError (N.writeW bs n).1.2), (N.writeW bs n).2) := by
  refine ⟨fun bs => ⟨_, rfl⟩, ⟨_, rfl⟩, fun k => ⟨_, rfl⟩, fun s hs k => ?_, fun s hs bs _ h0 => ?_⟩
  · simp only [List.mem_cons, List.not_mem_nil, or_false] at hs
    rcases hs with rfl | rfl | rfl <;> rfl
  · have key : ∀ s : IOStream, s.writer = true →
        s.write N bs n = (.ok ((N.writeW bs n).1.1, transportFromOsError (N.writeW bs n).1.2), (N.writeW bs n).2) := by
      intro s hs
      rw [IOStream.write, hs, if_pos rfl]
      generalize N.writeW bs n = y at *
      rcases y with ⟨⟨m, e⟩, n'⟩
      simp only at h0 ⊢
      rw [if_neg fun h => h0 h.1]
    simp only [List.mem_cons, List.not_mem_nil, or_false] at hs
    rcases hs with rfl | rfl | rfl <;> exact key _ rfl

example := (C156_directions (buffered plainEnds) (Bufio.new, ())).2.2.2.2 IOStream.newW List.mem_cons_self [1] nofun (by decide)

end Thrift
