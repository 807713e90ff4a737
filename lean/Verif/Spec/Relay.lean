import Verif.Spec.Versions
/-!
# Programs between two others

When is a version of the declarations fit for a program that passes objects on?
-/

namespace Thrift

/-- A program of version `S'` can stand between programs of version `S`: it knows all
fields, with the same default values, requires those that they require, and its own
default values can be sent. -/
structure Relays (S S' : Schema) : Prop where
  knows : ∀ k, ∀ m ∈ (S.structs k).members, ∃ m' ∈ (S'.structs k).members, m.id = m'.id
  defaults : ∀ k, ∀ m ∈ (S.structs k).members, ∀ m' ∈ (S'.structs k).members, m.id = m'.id → m.dflt = m'.dflt
  optional : ∀ k, ∀ m ∈ (S.structs k).members, ∀ m' ∈ (S'.structs k).members, m.id = m'.id → m'.optional = true → m.optional = true
  check : ∀ k, ∀ m' ∈ (S'.structs k).members, m'.ty = .double → m'.initial S' = .float64 m'.check
  sendable : ∀ k, ∀ m' ∈ (S'.structs k).members, m'.Unset S' (m'.initial S') ∨ Fine S' m'.ty (m'.initial S')
  nonempty : ∀ k, ∀ m' ∈ (S'.structs k).members, m'.optional = true → (m'.initial S').isEmpty = false

end Thrift
