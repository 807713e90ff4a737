import Verif.Spec.Gen
/-!
# Two versions of a program

A writer made from one version of the declarations and a reader made from another.
-/

namespace Thrift

/-- The IDL types whose values are neither enumerators nor made of others. -/
def Ty.Leaf : Ty → Prop
  | .bool | .byte | .i16 | .i32 | .i64 | .double | .string | .binary => True
  | _ => False

/-- Two versions of the declarations: a field that both have is of one type in both,
and values of enums are not named by numbers.  Fields may come and go, change their
name, their default value, and whether they are optional. -/
structure Versions (S S' : Schema) : Prop where
  types : ∀ k, ∀ m ∈ (S.structs k).members, ∀ m' ∈ (S'.structs k).members, m.id = m'.id → m.ty = m'.ty
  texts : ∀ k, (∀ v, decimalValue (S.enumText k v) = none) → ∀ v, decimalValue (S'.enumText k v) = none

/-- An optional field that is in both versions has one default value in both. -/
def SameDefaults (S S' : Schema) : Prop :=
  ∀ k, ∀ m ∈ (S.structs k).members, ∀ m' ∈ (S'.structs k).members, m.id = m'.id → m.optional = true → m.dflt = m'.dflt

/-- What the reader of version `S'` has is what the writer of version `S` had: the
fields of both versions that were set carry the same data, all other fields of `S'` are as in a new
object.  With `lax`, an optional field that was set to its default value may be as in
a new object, too; other values are then the same to the last bit. -/
inductive Received (S S' : Schema) (lax : Prop) : Ty → Dyn → Dyn → Prop
  | leaf {t d d'} (ht : t.Leaf) (h : Same d d') (exact : lax → d' = d) : Received S S' lax t d d'
  | enum (k v t) : Received S S' lax (.enum k) (.enumer k v t) (.enumer k v (S'.enumText k v))
  | struct {k p q as bs} (ids : bs.map (·.1) = (S'.structs k).members.map (·.id.toInt))
      (new : ∀ m' ∈ (S'.structs k).members, (∀ m ∈ (S.structs k).members, m.id ≠ m'.id) →
        attributeOf bs m'.id.toInt = m'.initial S')
      (unset : ∀ m ∈ (S.structs k).members, ∀ m' ∈ (S'.structs k).members, m.id = m'.id → m.Unset S (attributeOf as m.id.toInt) →
        attributeOf bs m.id.toInt = m'.initial S')
      (set : ∀ m ∈ (S.structs k).members, ∀ m' ∈ (S'.structs k).members, m.id = m'.id → ¬ m.Unset S (attributeOf as m.id.toInt) →
        ¬ (lax ∧ m.optional = true ∧ m.ty.Leaf ∧ Same (attributeOf as m.id.toInt) (m.initial S) ∧ attributeOf bs m.id.toInt = m'.initial S') →
        Received S S' lax m.ty (attributeOf as m.id.toInt) (attributeOf bs m.id.toInt)) :
      Received S S' lax (.struct k) ((S.structs k).object p as) ((S'.structs k).object q bs)
  | list {e p q t t' as bs} (len : as.length = bs.length)
      (h : ∀ i, i < as.length → Received S S' lax e (as.getD i .nil) (bs.getD i .nil)) :
      Received S S' lax (.list e) (.list p t as) (.list q t' bs)
  | set {e p q t t' n as bs} (len : as.length = bs.length)
      (h : ∀ i, i < as.length → Received S S' lax e (as.getD i .nil) (bs.getD i .nil)) :
      Received S S' lax (.set e) (.set p t n as) (.set q t' n bs)
  | map {k w p q kt vt vt' n ks vs ks' vs' es es'} (len : es.length = es'.length)
      (hk : ∀ i, i < es.length → Received S S' lax k (es.getD i (.nil, .nil)).1 (es'.getD i (.nil, .nil)).1)
      (hv : ∀ i, i < es.length → Received S S' lax w (es.getD i (.nil, .nil)).2 (es'.getD i (.nil, .nil)).2) :
      Received S S' lax (.map k w) (.map p kt vt n ks vs es) (.map q kt vt' n ks' vs' es')

end Thrift
