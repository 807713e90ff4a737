import Verif.Model.Protocol
/-!
# Field metadata

`tfield.go`, and the comparison helpers of `tcompare.go`.
-/

namespace Thrift

/-- `CompareInt`, tcompare.go:22-30. -/
def compareInt (i j : Int) : Int := if i > j then 1 else if i < j then -1 else 0

/-- `CompareByte`, tcompare.go:105-113. -/
def compareByte (i j : Byte) : Int := if i.toNat > j.toNat then 1 else if i.toNat < j.toNat then -1 else 0

/-- Go's `<` on strings, and the order of `bytes.Compare`: bytewise
lexicographic. -/
def bytesLt : Bytes → Bytes → Bool
  | [], [] => false
  | [], _ :: _ => true
  | _ :: _, [] => false
  | a :: as, b :: bs => if a = b then bytesLt as bs else a.toNat < b.toNat

/-- `CompareString`, tcompare.go:75-83 (`>` is `<` with the sides exchanged);
also `bytes.Compare`. -/
def compareString (i j : Bytes) : Int := if bytesLt j i then 1 else if bytesLt i j then -1 else 0

/-- `tField`, tfield.go:39-43. -/
structure Field where
  name : Bytes
  typeId : TType
  id : Int
  deriving DecidableEq, Repr

/-- `ANONYMOUS_FIELD`, tfield.go:110, 279-281. -/
def anonymousField : Field := ⟨[], TT.STOP, 0⟩

/-- `tField.CompareTo` for another field, tfield.go:81-95. -/
def Field.compareTo (p d : Field) : Int :=
  if p.id ≠ d.id then compareInt p.id d.id
  else if p.typeId ≠ d.typeId then compareByte p.typeId d.typeId
  else compareString p.name d.name

/-- `tField.Equals` for another field, tfield.go:97-108; names are not
compared. -/
def Field.equals (p d : Field) : Bool := p.typeId = d.typeId && p.id = d.id

/-- `tFieldContainer`, tfield.go:136-140: the fields in the given order (the
sorted copy made by the constructor is thrown away, L142-159), and the two maps
as the functions they represent. -/
structure FieldContainer where
  fields : List Field
  byName : Bytes → Option Field
  byId : Int → Option Field

/-- The loop of `NewTFieldContainer`, tfield.go:146-152: later fields replace
earlier ones, empty names are left out. -/
def fillMaps : List Field → (Bytes → Option Field) → (Int → Option Field) →
    (Bytes → Option Field) × (Int → Option Field)
  | [], n, i => (n, i)
  | f :: fs, n, i =>
    fillMaps fs (if f.name ≠ [] then fun x => if x = f.name then some f else n x else n)
      (fun x => if x = f.id then some f else i x)

/-- `NewTFieldContainer`, tfield.go:142-159. -/
def FieldContainer.new (fs : List Field) : FieldContainer :=
  let m := fillMaps fs (fun _ => none) (fun _ => none)
  ⟨fs, m.1, m.2⟩

namespace FieldContainer
variable (c : FieldContainer)

/-- tfield.go:161-166. -/
def fieldNameFromFieldId (id : Int) : Bytes := match c.byId id with | some f => f.name | none => []
/-- tfield.go:168-173. -/
def fieldIdFromFieldName (name : Bytes) : Int := match c.byName name with | some f => f.id | none => -1
/-- tfield.go:175-180; also `At`, L193-195. -/
def fieldFromFieldId (id : Int) : Field := match c.byId id with | some f => f | none => anonymousField
/-- tfield.go:182-187. -/
def fieldFromFieldName (name : Bytes) : Field := match c.byName name with | some f => f | none => anonymousField
/-- tfield.go:189-191. -/
def len : Nat := c.fields.length
/-- `Contains` for an id, tfield.go:198-209. -/
def containsId (i : Int) : Bool := c.fields.any fun f => f.id = i
/-- `Contains` for a name, tfield.go:210-215. -/
def containsName (s : Bytes) : Bool := c.fields.any fun f => f.name = s
/-- `Contains` for a field, tfield.go:216-221. -/
def containsField (d : Field) : Bool := c.fields.any fun f => f.equals d
/-- `Equals` for another container, tfield.go:226-242. -/
def equals (d : FieldContainer) : Bool :=
  if c.len ≠ d.len then false else c.fields.all fun f => d.containsField f

/-- The loop of `CompareTo`, tfield.go:256-260. -/
def compareLoop (d : FieldContainer) : List Field → Int
  | [] => 0
  | f :: fs => let cmp := f.compareTo (d.fieldFromFieldId f.id); if cmp ≠ 0 then cmp else compareLoop d fs

/-- `CompareTo` for another container, tfield.go:244-264.  The shortcut for the
same object gives what the loop gives unless the container has two fields with
one id; it is left out. -/
def compareTo (d : FieldContainer) : Int :=
  let cmp := compareInt c.len d.len
  if cmp ≠ 0 then cmp else compareLoop d c.fields
end FieldContainer

end Thrift
