import Verif.Model.Transport
/-!
# Transports that deliver data piece by piece
-/

namespace Thrift

/-- The transport in this state delivers the bytes, cut in any way, and then
reports end of file. -/
inductive Supplies (T : Transport τ) : τ → Bytes → Prop
  | done {t} (e : Err) : e.kind = .eof → (∀ n, 0 < n → T.read n t = (.ok ([], some e), t)) → Supplies T t []
  | more {t} (y : Bytes) (k : Nat → Nat) (next : Nat → τ) : (∀ n, 0 < n → 0 < k n ∧ k n ≤ n ∧ k n ≤ y.length) →
      (∀ n, 0 < n → T.read n t = (.ok (y.take (k n), none), next n)) → (∀ n, 0 < n → Supplies T (next n) (y.drop (k n))) → Supplies T t y

end Thrift
