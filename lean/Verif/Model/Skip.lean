import Verif.Model.Protocol
/-!
# Skip

`tprotocol.go:80-200`.
-/

namespace Thrift

/-- `for i := 0; i < n; i++ { body }`. -/
def repeatN : Nat → P π Unit → P π Unit
  | 0, _ => pure ()
  | n + 1, body => do body; repeatN n body

/-- The loop over struct fields in `Skip`, tprotocol.go:151-158: errors of
`ReadFieldBegin`, of the nested `Skip` and of `ReadFieldEnd` are ignored. -/
def skipFields (p : Proto π) (skipValue : TType → P π GoErr) : (fuel : Nat) → P π Unit
  | 0 => P.stuck
  | fuel + 1 => do
    let ((_, typeId, _), _) ← p.readFieldBegin
    if typeId = TT.STOP then return ()
    let _ ← skipValue typeId
    let _ ← p.readFieldEnd
    skipFields p skipValue fuel

/-- `Skip`, tprotocol.go:120-200.  `fuel` bounds both the nesting depth and the
number of fields of one struct.  `msd` is the global `MaxSkipDepth`
(tprotocol.go:83-85), used through `self.Skip(valueType)` for map values. -/
def skip (p : Proto π) (msd : Int) : (fuel : Nat) → TType → (maxDepth : Int) → P π GoErr
  | 0, _, _ => P.stuck
  | fuel + 1, fieldType, maxDepth =>
    if fieldType = TT.STOP then return none
    else if fieldType = TT.BOOL then do return (← p.readBool).2
    else if fieldType = TT.BYTE then do return (← p.readByte).2
    else if fieldType = TT.I16 then do return (← p.readI16).2
    else if fieldType = TT.I32 then do return (← p.readI32).2
    else if fieldType = TT.I64 then do return (← p.readI64).2
    else if fieldType = TT.DOUBLE then do return (← p.readDouble).2
    else if fieldType = TT.STRING then do return (← p.readString).2
    else if fieldType = TT.STRUCT then do
      let (_, err) ← p.readStructBegin
      if err.isSome then return err
      skipFields p (fun t => skip p msd fuel t (maxDepth - 1)) fuel
      p.readStructEnd
    else if fieldType = TT.MAP then do
      let ((keyType, valueType, l), err) ← p.readMapBegin
      if err.isSome then return err
      repeatN l.toNat (do
        let _ ← skip p msd fuel keyType (maxDepth - 1)
        let _ ← skip p msd fuel valueType msd
        return ())
      p.readMapEnd
    else if fieldType = TT.SET then do
      let ((elemType, l), err) ← p.readSetBegin
      if err.isSome then return err
      repeatN l.toNat (do let _ ← skip p msd fuel elemType (maxDepth - 1); return ())
      p.readSetEnd
    else if fieldType = TT.LIST then do
      let ((elemType, l), err) ← p.readListBegin
      if err.isSome then return err
      repeatN l.toNat (do let _ ← skip p msd fuel elemType (maxDepth - 1); return ())
      p.readListEnd
    else return none

/-- `SkipDefaultDepth`, tprotocol.go:108-110, which is also what `Skip` of both
protocols calls. -/
def skipDefaultDepth (p : Proto π) (msd : Int) (fuel : Nat) (t : TType) : P π GoErr :=
  skip p msd fuel t msd

end Thrift
