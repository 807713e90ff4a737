import Verif.Model.Go
/-!
# Go comments

Go specification, "Comments": a general comment starts with `/*` and stops with the
first subsequent `*/`.
-/

namespace Thrift

/-- What stands behind the first end of a comment. -/
def closes : Bytes → Option Bytes
  | [] => none
  | c :: r => if c = 42 ∧ r.head? = some 47 then some r.tail else closes r

/-- The text is white space, one comment and a line end, whatever comes behind. -/
def OneComment (text : Bytes) : Prop :=
  ∃ ws body, (∀ c ∈ ws, c = 32 ∨ c = 9) ∧ text = ws ++ [47, 42] ++ body ++ [10] ∧ ∀ rest, closes (body ++ rest) = some rest

end Thrift
