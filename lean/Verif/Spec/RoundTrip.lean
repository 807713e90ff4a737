import Verif.Model.Transport
/-!
# Round trip through a memory buffer
-/

namespace Thrift

/-- Writing with `w` (protocol object `sw`) appends some bytes to whatever the
buffer holds, reports no error and leaves the object as it was; reading those
bytes with `r` (object `sr`), whatever follows them, gives `v` and no error, and
leaves exactly what follows. -/
def RoundTrips (w : P π GoErr) (sw : π) (r : P ρ (α × GoErr)) (sr : ρ) (v : α) : Prop :=
  ∃ bs : Bytes,
    (∀ before, w.run memory sw before = (.ok (none, sw), before ++ bs)) ∧
    (∀ after, r.run memory sr (bs ++ after) = (.ok ((v, none), sr), after))

end Thrift
