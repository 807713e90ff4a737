import Verif.Model.Go
/-!
# The ideal byte stream

An ideal two-way connection: bytes still to be read, bytes sent so far.  Every
read hands over as much as is asked for and there, the end of the stream is an
error, writes and flushes succeed.  It is the reference against which
transports are compared; it is not taken from the code.
-/

namespace Thrift

/-- The error of a read at the end of the ideal stream. -/
def endOfStream : Err := ⟨.eof, 0, []⟩

/-- The ideal stream; its state is (unread input, output so far). -/
def duplex : Transport (Bytes × Bytes) where
  read n s :=
    if s.1 = [] then (.ok ([], if n = 0 then none else some endOfStream), s)
    else (.ok (s.1.take n, none), (s.1.drop n, s.2))
  write bs s := (.ok (bs.length, none), (s.1, s.2 ++ bs))
  flush s := (.ok none, s)

/-- A transport that, in the states satisfying `I`, delivers a byte stream
faithfully, in pieces of its own choosing.  `view` is what is still to be read;
`sent` (what has been written) is not touched by reads. -/
structure FaithfulReaderOn (T : Transport σ) (I : σ → Prop) (view sent : σ → Bytes) : Prop where
  read_some : ∀ n s, I s → 0 < n → view s ≠ [] → ∃ k s', 0 < k ∧ k ≤ n ∧ k ≤ (view s).length ∧
    T.read n s = (.ok ((view s).take k, none), s') ∧ view s' = (view s).drop k ∧ sent s' = sent s ∧ I s'
  read_end : ∀ n s, I s → 0 < n → view s = [] → ∃ e s',
    T.read n s = (.ok ([], some e), s') ∧ view s' = [] ∧ sent s' = sent s ∧ I s'

/-- The same in all states. -/
abbrev FaithfulReader (T : Transport σ) (view sent : σ → Bytes) : Prop :=
  FaithfulReaderOn T (fun _ => True) view sent

/-- A transport that also accepts all output. -/
structure Faithful (T : Transport σ) (view sent : σ → Bytes) : Prop
    extends FaithfulReaderOn T (fun _ => True) view sent where
  write : ∀ bs s, ∃ s', T.write bs s = (.ok (bs.length, none), s') ∧ view s' = view s ∧
    sent s' = sent s ++ bs
  flush : ∀ s, ∃ s', T.flush s = (.ok none, s') ∧ view s' = view s ∧ sent s' = sent s

end Thrift
