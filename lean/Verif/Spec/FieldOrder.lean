import Verif.Spec.Value
/-!
# Fields by id
-/

namespace Thrift

/-- The values that come with the given id, in order. -/
def Fields.at : Fields → I16 → List Val
  | .nil, _ => []
  | .cons id v r, i => if id = i then v :: r.at i else r.at i

/-- The fields with another id. -/
def Fields.without : Fields → I16 → Fields
  | .nil, _ => .nil
  | .cons id v r, i => if id = i then r.without i else .cons id v (r.without i)

end Thrift
