import Verif.Spec.Dyn
/-!
# What the order on nested lists and sets should be

Stated without the comparison and coercion functions of the model.
-/

namespace Thrift

/-- The type of a scalar value, of a list or of a set. -/
inductive Shape where
  | scalar (t : TType)
  | list (s : Shape)
  | set (s : Shape)
  deriving DecidableEq, Repr

def Shape.type : Shape → TType
  | .scalar t => t
  | .list _ => TT.LIST
  | .set _ => TT.SET

/-- A value of the given type without NaN; `heap` says what each object holds, so
that one object does not have two contents. -/
def Shape.Has (heap : Nat → Dyn) : Shape → Dyn → Prop
  | .scalar t, d => Scalar t d
  | .list s, d => ∃ ptr vs, d = .list ptr s.type vs ∧ heap ptr = d ∧ ∀ v ∈ vs, s.Has heap v
  | .set s, d => ∃ ptr n vs, d = .set ptr s.type n vs ∧ heap ptr = d ∧ ∀ v ∈ vs, s.Has heap v

/-- Two rows of the same length agree everywhere. -/
def RowSame (same : Dyn → Dyn → Prop) : List Dyn → List Dyn → Prop
  | [], [] => True
  | x :: xs, y :: ys => same x y ∧ RowSame same xs ys
  | _, _ => False

/-- At the first place where two rows differ, the first row has the smaller
element. -/
def RowBefore (same before : Dyn → Dyn → Prop) : List Dyn → List Dyn → Prop
  | x :: xs, y :: ys => before x y ∨ same x y ∧ RowBefore same before xs ys
  | _, _ => False

/-- Equality of contents. -/
def Shape.Same : Shape → Dyn → Dyn → Prop
  | .scalar _, a, b => a.key = b.key
  | .list s, .list _ _ xs, .list _ _ ys => RowSame s.Same xs ys
  | .set s, .set _ _ m xs, .set _ _ n ys => m = n ∧ RowSame s.Same xs ys
  | _, _, _ => False

/-- The order: shorter before longer, then by the first difference.  A set is
first placed by the length it reports. -/
def Shape.Before : Shape → Dyn → Dyn → Prop
  | .scalar _, a, b => LexLt a.key b.key
  | .list s, .list _ _ xs, .list _ _ ys =>
    xs.length < ys.length ∨ xs.length = ys.length ∧ RowBefore s.Same s.Before xs ys
  | .set s, .set _ _ m xs, .set _ _ n ys =>
    m < n ∨ m = n ∧ (xs.length < ys.length ∨ xs.length = ys.length ∧ RowBefore s.Same s.Before xs ys)
  | _, _, _ => False

end Thrift
