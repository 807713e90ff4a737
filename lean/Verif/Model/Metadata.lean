import Verif.Model.Field
import Verif.Model.Dyn
/-!
# Descriptions of messages and the texts of descriptions

`tmessage.go` and the `String` methods of `tfield.go`.
-/

namespace Thrift

/-- `tMessage`, tmessage.go:32-36.  `seqid` is an `int` of 64 bits. -/
structure Message where
  name : Bytes
  typeId : I32
  seqid : I64
  deriving DecidableEq, Repr

/-- `NewTMessage`, tmessage.go:42-44. -/
def Message.new (n : Bytes) (t : I32) (s : I64) : Message := ⟨n, t, s⟩

/-- `NewTMessageDefault`, tmessage.go:38-40; also `EMPTY_MESSAGE`, L66-70. -/
def Message.default : Message := Message.new [] 0 0

/-- `Name`, `TypeId` and `SeqId`, tmessage.go:46-56, of any message; `Equals`,
L62-64. -/
def Message.equals (p d : Message) : Bool := p.name = d.name && p.typeId = d.typeId && p.seqid = d.seqid

/-- `tMessage.String`, tmessage.go:58-60: `string(n)` is the text with the one code
point `n`. -/
def Message.text (p : Message) : Bytes :=
  ascii "<TMessage name:'" ++ p.name ++ ascii "' type: " ++ runeString p.typeId.toInt ++ ascii " seqid:" ++
    runeString p.seqid.toInt ++ ascii ">"

/-- `tField.String`, tfield.go:74-79, of a field that is not nil. -/
def Field.text (p : Field) : Bytes :=
  ascii "<TField name:'" ++ p.name ++ ascii "' type:" ++ runeString p.typeId.toNat ++ ascii " field-id:" ++
    runeString p.id ++ ascii ">"

/-- `tFieldArray.Less`, tfield.go:118-120. -/
def fieldLess (p q : Field) : Bool := p.id < q.id

/-- The three accessors of a field, tfield.go:53-72, and its text, L74-79, where the
pointer may be nil. -/
def fieldNameOf (p : Option Field) : Bytes := match p with | none => [] | some f => f.name
def fieldTypeIdOf (p : Option Field) : TType := match p with | none => TT.VOID | some f => f.typeId
def fieldIdOf (p : Option Field) : Int := match p with | none => -1 | some f => f.id
def fieldTextOf (p : Option Field) : Bytes := match p with | none => ascii "<nil>" | some f => f.text

end Thrift
