import Verif.Lemmas.Run
import Verif.Model.Transport
/-!
# From the ideal stream to the memory buffer

A memory buffer keeps one queue for both directions.  Programs that only write,
or only read, behave on it as on the ideal stream.
-/

namespace Thrift

theorem memory_reader : FaithfulReader memory (fun b => b) (fun _ => []) where
  read_some n s _ hn hv := by
    refine ⟨min n s.length, s.drop n, ?_, by omega, by omega, ?_, ?_, rfl, trivial⟩
    · have : s.length ≠ 0 := by simpa using hv
      omega
    · have h : List.take n s = List.take (min n s.length) s := by
        by_cases h : n ≤ s.length
        · rw [Nat.min_eq_left h]
        · rw [Nat.min_eq_right (by omega), List.take_of_length_le (by omega), List.take_length]
      simp only [memory, bufferRead, if_neg hv, h]
    · by_cases h : n ≤ s.length
      · rw [Nat.min_eq_left h]
      · rw [Nat.min_eq_right (by omega), List.drop_of_length_le (by omega), List.drop_length]
  read_end n s _ hn hv := by
    have hn' : n ≠ 0 := by omega
    exact ⟨ioEOF, [], by simp only [memory, bufferRead, hv]; simp [hn'], rfl, rfl, trivial⟩

theorem memory_readAll (n : Nat) (b : Bytes) :
    memory.readAll n b =
      if n ≤ b.length then (.ok ⟨b.take n, n, none⟩, b.drop n)
      else (.ok ⟨fillBuf n b, 0, some readAllErr⟩, []) := by
  obtain ⟨b', h1, _, _, h3⟩ := memory_reader.readAll n b trivial
  subst h1
  rw [h3]
  split
  · rfl
  · rw [List.drop_of_length_le (by omega)]

/-- The input only shrinks and the output only grows. -/
theorem duplex_monotone (p : Prog α) (inp out : Bytes) :
    (∃ k, (p.run duplex (inp, out)).2.1 = inp.drop k) ∧
    ∃ w, (p.run duplex (inp, out)).2.2 = out ++ w := by
  induction p generalizing inp out with
  | ret a => exact ⟨⟨0, rfl⟩, [], by simp [Prog.run]⟩
  | panic => exact ⟨⟨0, rfl⟩, [], by simp [Prog.run]⟩
  | stuck => exact ⟨⟨0, rfl⟩, [], by simp [Prog.run]⟩
  | readAll n k ih =>
    simp only [Prog.run, duplex_readAll]
    by_cases h : n ≤ inp.length
    · simp only [h, if_true]
      obtain ⟨⟨j, hj⟩, w, hw⟩ := ih ⟨inp.take n, n, none⟩ (inp.drop n) out
      exact ⟨⟨n + j, by rw [hj, List.drop_drop]⟩, w, hw⟩
    · simp only [h, if_false]
      obtain ⟨⟨j, hj⟩, w, hw⟩ := ih ⟨fillBuf n inp, 0, some readAllErr⟩ [] out
      exact ⟨⟨inp.length, by rw [hj]; simp⟩, w, hw⟩
  | write bs k ih =>
    obtain ⟨⟨j, hj⟩, w, hw⟩ := ih (bs.length, none) inp (out ++ bs)
    exact ⟨⟨j, hj⟩, bs ++ w, by rw [← List.append_assoc]; exact hw⟩
  | flush k ih => exact ih none inp out

/-- A program that leaves some unread input alone and writes `bs` appends `bs`
to a memory buffer. -/
theorem memory_of_writes (p : Prog α) (inp out bs : Bytes) (b : Bytes) (r : Res α) (hi : inp ≠ [])
    (h : p.run duplex (inp, out) = (r, (inp, out ++ bs))) : p.run memory b = (r, b ++ bs) := by
  induction p generalizing out bs b with
  | ret a =>
    simp only [Prog.run, Prod.mk.injEq, true_and, List.self_eq_append_right] at h ⊢
    exact ⟨h.1, by simp [h.2]⟩
  | panic =>
    simp only [Prog.run, Prod.mk.injEq, true_and, List.self_eq_append_right] at h ⊢
    exact ⟨h.1, by simp [h.2]⟩
  | stuck =>
    simp only [Prog.run, Prod.mk.injEq, true_and, List.self_eq_append_right] at h ⊢
    exact ⟨h.1, by simp [h.2]⟩
  | readAll n k ih =>
    cases n with
    | zero => exact ih _ out bs b h
    | succ n =>
      exfalso
      have hlen : inp.length ≠ 0 := by simpa using hi
      simp only [Prog.run, duplex_readAll] at h
      by_cases hn : n + 1 ≤ inp.length
      · simp only [hn, if_true] at h
        obtain ⟨⟨j, hj⟩, _⟩ := duplex_monotone (k ⟨inp.take (n + 1), n + 1, none⟩) (inp.drop (n + 1)) out
        rw [h] at hj
        have := congrArg List.length hj
        simp at this; omega
      · simp only [hn, if_false] at h
        obtain ⟨⟨j, hj⟩, _⟩ := duplex_monotone (k ⟨fillBuf (n + 1) inp, 0, some readAllErr⟩) [] out
        rw [h] at hj
        simp at hj; exact hi hj
  | write ws k ih =>
    have h' : (k (ws.length, none)).run duplex (inp, out ++ ws) = (r, (inp, out ++ bs)) := h
    obtain ⟨_, w, hw⟩ := duplex_monotone (k (ws.length, none)) inp (out ++ ws)
    rw [h'] at hw
    simp only [List.append_assoc, List.append_cancel_left_eq] at hw
    subst hw
    rw [← List.append_assoc] at h'
    have := ih _ (out ++ ws) w (b ++ ws) h'
    show (k (ws.length, none)).run memory (b ++ ws) = _
    rw [this, List.append_assoc]
  | flush k ih => exact ih none out bs b h

/-- A program that writes nothing consumes the same bytes of a memory buffer. -/
theorem memory_of_reads (p : Prog α) (inp inp' out : Bytes) (r : Res α)
    (h : p.run duplex (inp, out) = (r, (inp', out))) : p.run memory inp = (r, inp') := by
  induction p generalizing inp out with
  | ret a => simp only [Prog.run, Prod.mk.injEq] at h ⊢; exact ⟨h.1, h.2.1⟩
  | panic => simp only [Prog.run, Prod.mk.injEq] at h ⊢; exact ⟨h.1, h.2.1⟩
  | stuck => simp only [Prog.run, Prod.mk.injEq] at h ⊢; exact ⟨h.1, h.2.1⟩
  | readAll n k ih =>
    simp only [Prog.run, duplex_readAll, memory_readAll] at h ⊢
    by_cases hn : n ≤ inp.length
    · simp only [hn, if_true] at h ⊢; exact ih _ _ _ h
    · simp only [hn, if_false] at h ⊢; exact ih _ _ _ h
  | write ws k ih =>
    have h' : (k (ws.length, none)).run duplex (inp, out ++ ws) = (r, (inp', out)) := h
    obtain ⟨_, w, hw⟩ := duplex_monotone (k (ws.length, none)) inp (out ++ ws)
    rw [h'] at hw
    have hl := congrArg List.length hw
    have : ws = [] := by
      apply List.eq_nil_of_length_eq_zero
      simp only [List.length_append] at hl; omega
    subst this
    have := ih (([] : Bytes).length, none) inp (out ++ []) (by simpa using h')
    show (k (([] : Bytes).length, none)).run memory (inp ++ []) = _
    rw [List.append_nil]; exact this
  | flush k ih => exact ih none inp out h

theorem Emits.memory {m : P π GoErr} {s s' : π} {bs : Bytes} (h : Emits m s s' bs) (b : Bytes) :
    m.run memory s b = (.ok (none, s'), b ++ bs) :=
  memory_of_writes (m s) [0] [] bs b _ (by simp) (h [0] [])

theorem Runs.memory {m : P π α} {s s' : π} {bs : Bytes} {r : α} (h : Runs m s s' bs r) (rest : Bytes) :
    m.run memory s (bs ++ rest) = (.ok (r, s'), rest) :=
  memory_of_reads (m s) _ _ [] _ (h rest [])

end Thrift
