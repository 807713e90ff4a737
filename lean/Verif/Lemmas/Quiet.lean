import Verif.Lemmas.ReadOnly
import Verif.Model.Service
/-!
# Programs that do not flush
-/

namespace Thrift

/-- The program makes no `Flush` call. -/
def Prog.Quiet : Prog α → Prop
  | .ret _ => True
  | .panic => True
  | .stuck => True
  | .readAll _ k => ∀ x, (k x).Quiet
  | .write _ k => ∀ x, (k x).Quiet
  | .flush _ => False

theorem Prog.Quiet.bind {p : Prog α} {f : α → Prog β} (hp : p.Quiet) (hf : ∀ a, (f a).Quiet) : (p.bind f).Quiet := by
  induction p with
  | ret a => exact hf a
  | panic => trivial
  | stuck => trivial
  | readAll n k ih => exact fun x => ih x (hp x)
  | write bs k ih => exact fun x => ih x (hp x)
  | flush => exact hp.elim

theorem Prog.ReadOnly.quiet {p : Prog α} (hp : p.ReadOnly) : p.Quiet := by
  induction p with
  | ret a => trivial
  | panic => trivial
  | stuck => trivial
  | readAll n k ih => exact fun x => ih x (hp x)
  | write => exact hp.elim
  | flush => exact hp.elim

/-- The same with an object state. -/
def P.Quiet (m : P π α) : Prop := ∀ s, (m s).Quiet

theorem P.ReadOnly.quiet {m : P π α} (h : m.ReadOnly) : m.Quiet := fun s => (h s).quiet

namespace P.Quiet
theorem pure (a : α) : Quiet (Pure.pure a : P π α) := fun _ => trivial
theorem bind {m : P π α} {f : α → P π β} (hm : Quiet m) (hf : ∀ a, Quiet (f a)) : Quiet (m >>= f) := fun s =>
  Prog.Quiet.bind (hm s) fun a => hf a.1 a.2
theorem get : Quiet (P.get : P π π) := fun _ => trivial
theorem modify (f : π → π) : Quiet (P.modify f) := fun _ => trivial
theorem panic : Quiet (P.panic : P π α) := fun _ => trivial
theorem stuck : Quiet (P.stuck : P π α) := fun _ => trivial
theorem readAll (n : Nat) : Quiet (P.readAll n : P π _) := fun _ _ => trivial
theorem write (bs : Bytes) : Quiet (P.write bs : P π _) := fun _ _ => trivial
theorem ite {c : Prop} [Decidable c] {a b : P π α} (ha : Quiet a) (hb : Quiet b) : Quiet (if c then a else b) := by split <;> assumption
theorem wrap {m : P π GoErr} (w : Err → Err) (h : Quiet m) : Quiet (wrapErr w m) := bind h fun _ => pure _
theorem ofRes (r : Res α) : Quiet (P.ofRes r : P π α) := by cases r <;> exact fun _ => trivial
end P.Quiet

/-- Close goals `P.Quiet m` by following the text of `m`. -/
macro "quiet" : tactic => `(tactic| repeat' first
  | exact P.Quiet.pure _ | exact P.Quiet.get | exact P.Quiet.modify _ | exact P.Quiet.panic | exact P.Quiet.stuck
  | exact P.Quiet.readAll _ | exact P.Quiet.write _ | exact P.Quiet.ofRes _ | assumption
  | apply P.Quiet.ite | (refine P.Quiet.wrap _ ?_) | (refine P.Quiet.bind ?_ fun _ => ?_) | split)

/-- No write call of a protocol flushes. -/
structure Proto.Holds (p : Proto π) : Prop where
  messageBegin : ∀ a b c, (p.writeMessageBegin a b c).Quiet
  messageEnd : p.writeMessageEnd.Quiet
  structBegin : ∀ a, (p.writeStructBegin a).Quiet
  structEnd : p.writeStructEnd.Quiet
  fieldBegin : ∀ a b c, (p.writeFieldBegin a b c).Quiet
  fieldEnd : p.writeFieldEnd.Quiet
  fieldStop : p.writeFieldStop.Quiet
  mapBegin : ∀ a b c, (p.writeMapBegin a b c).Quiet
  mapEnd : p.writeMapEnd.Quiet
  listBegin : ∀ a b, (p.writeListBegin a b).Quiet
  listEnd : p.writeListEnd.Quiet
  setBegin : ∀ a b, (p.writeSetBegin a b).Quiet
  setEnd : p.writeSetEnd.Quiet
  bool : ∀ a, (p.writeBool a).Quiet
  byte : ∀ a, (p.writeByte a).Quiet
  i16 : ∀ a, (p.writeI16 a).Quiet
  i32 : ∀ a, (p.writeI32 a).Quiet
  i64 : ∀ a, (p.writeI64 a).Quiet
  double : ∀ a, (p.writeDouble a).Quiet
  string : ∀ a, (p.writeString a).Quiet
  binary : ∀ a, (p.writeBinary a).Quiet

section
open BinaryProtocol

theorem Bin.q_byte (a : Byte) : (writeByte a).Quiet := by unfold writeByte; quiet
theorem Bin.q_i16 (a : I16) : (writeI16 a).Quiet := by unfold writeI16; quiet
theorem Bin.q_i32 (a : I32) : (writeI32 a).Quiet := by unfold writeI32; quiet
theorem Bin.q_i64 (a : I64) : (writeI64 a).Quiet := by unfold writeI64; quiet
theorem Bin.q_binary (a : Bytes) : (writeBinary a).Quiet := by
  have := Bin.q_i32 (BitVec.ofNat 32 a.length)
  unfold writeBinary; quiet
theorem Bin.q_string (a : Bytes) : (writeString a).Quiet := by
  have h1 := Bin.q_i32 (BitVec.ofNat 32 a.length)
  have h2 : (copyN a).Quiet := by unfold copyN; quiet
  unfold writeString; quiet
theorem Bin.q_list (a : TType) (n : Int) : (writeListBegin a n).Quiet := by
  have h1 := Bin.q_byte (thriftTypeId a)
  have h2 := Bin.q_i32 (BitVec.ofInt 32 n)
  unfold writeListBegin; quiet

theorem binary_holds : binary.Holds where
  messageBegin a b c := by
    show (writeMessageBegin a b c).Quiet
    have h1 := Bin.q_i32 (VERSION_1 ||| b)
    have h2 := Bin.q_string a
    have h3 := Bin.q_i32 c
    have h4 := Bin.q_byte (b.setWidth 8)
    unfold writeMessageBegin; quiet
  messageEnd := .pure _
  structBegin _ := .pure _
  structEnd := .pure _
  fieldBegin a b c := by
    show (writeFieldBegin a b c).Quiet
    have h1 := Bin.q_byte (thriftTypeId b)
    have h2 := Bin.q_i16 c
    unfold writeFieldBegin; quiet
  fieldEnd := .pure _
  fieldStop := Bin.q_byte _
  mapBegin a b c := by
    show (writeMapBegin a b c).Quiet
    have h1 := Bin.q_byte (thriftTypeId a)
    have h2 := Bin.q_byte (thriftTypeId b)
    have h3 := Bin.q_i32 (BitVec.ofInt 32 c)
    unfold writeMapBegin; quiet
  mapEnd := .pure _
  listBegin := Bin.q_list
  listEnd := .pure _
  setBegin := Bin.q_list
  setEnd := .pure _
  bool a := by
    show (writeBool a).Quiet
    have h1 := Bin.q_byte 1
    have h2 := Bin.q_byte 0
    unfold writeBool; quiet
  byte := Bin.q_byte
  i16 := Bin.q_i16
  i32 := Bin.q_i32
  i64 := Bin.q_i64
  double := fun a => Bin.q_i64 a
  string := Bin.q_string
  binary := Bin.q_binary

end

section
variable {p : Proto π} {S : Schema} {L : FloatLib} {mem : List Nat → Nat} {msd : Int}

theorem quiet_elems {wr : Dyn → P π GoErr} (h : ∀ d, (wr d).Quiet) : ∀ ds, (genWriteElems wr ds).Quiet
  | [] => .pure _
  | d :: ds => by
    have h1 := h d
    have h2 := quiet_elems h ds
    unfold genWriteElems; quiet

theorem quiet_entries {wk wv : Dyn → P π GoErr} (h : ∀ d, (wk d).Quiet) (h' : ∀ d, (wv d).Quiet) : ∀ ds, (genWriteEntries wk wv ds).Quiet
  | [] => .pure _
  | (k, v) :: ds => by
    have h1 := h k
    have h2 := h' v
    have h3 := quiet_entries h h' ds
    unfold genWriteEntries; quiet

theorem Proto.Holds.member (H : p.Holds) {wr : Bytes → Bytes → Ty → Dyn → P π GoErr} (h : ∀ a b t d, (wr a b t d).Quiet) (sd : StructDef)
    (attrs : List (Int × Dyn)) (m : Member) : (genWriteMember p S wr sd attrs m).Quiet := by
  have h1 := H.fieldBegin m.name m.ty.code m.id
  have h2 := H.fieldEnd
  have h3 := h m.name sd.name m.ty (attributeOf attrs m.id.toInt)
  unfold genWriteMember; quiet

theorem Proto.Holds.members (H : p.Holds) {wr : Bytes → Bytes → Ty → Dyn → P π GoErr} (h : ∀ a b t d, (wr a b t d).Quiet) (sd : StructDef)
    (attrs : List (Int × Dyn)) : ∀ ms, (genWriteMembers p S wr sd attrs ms).Quiet
  | [] => .pure _
  | m :: ms => by
    have h1 := H.member (S := S) h sd attrs m
    have h2 := Proto.Holds.members H h sd attrs ms
    unfold genWriteMembers; quiet

theorem Proto.Holds.body (H : p.Holds) (sd : StructDef) {f : P π GoErr} (h : f.Quiet) : (genWriteBody p sd f).Quiet := by
  have h1 := H.structBegin sd.name
  have h2 := H.fieldStop
  have h3 := H.structEnd
  unfold genWriteBody; quiet

theorem Proto.Holds.val (H : p.Holds) : ∀ fuel fn sn ty d, (genWriteVal p S fuel fn sn ty d).Quiet
  | 0, _, _, _, _ => .stuck
  | fuel + 1, fn, sn, ty, d => by
    have ih := Proto.Holds.val H fuel
    unfold genWriteVal
    split
    · exact .wrap _ (H.bool _)
    · exact .wrap _ (H.byte _)
    · exact .wrap _ (H.i16 _)
    · exact .wrap _ (H.i32 _)
    · exact .wrap _ (H.i64 _)
    · exact .wrap _ (H.double _)
    · exact .wrap _ (H.string _)
    · exact .wrap _ (H.binary _)
    · exact .ite (.wrap _ (H.i32 _)) .panic
    · exact .ite (.wrap _ (H.body _ (H.members ih _ _ _))) .panic
    · rename_i e _ _ vs
      have h1 := H.listBegin e.code vs.length
      have h2 := quiet_elems (ih [] [] e) vs
      have h3 := H.listEnd
      quiet
    · rename_i e _ _ n vs
      have h1 := H.setBegin e.code n
      have h2 := quiet_elems (ih [] [] e) vs
      have h3 := H.setEnd
      quiet
    · rename_i k v _ kt _ n _ _ entries
      have h1 := H.mapBegin k.code v.code n
      have h2 := fun es => quiet_entries (ih [] [] k) (ih [] [] v) es
      have h3 := H.mapEnd
      refine .bind (.wrap _ h1) fun _ => .ite (.pure _) ?_
      split
      · exact .panic
      · rename_i es _
        have := h2 es
        quiet
    · exact .panic

theorem Proto.Holds.write (H : p.Holds) (fuel : Nat) (sd : StructDef) (attrs : List (Int × Dyn)) : (genWrite p S fuel sd attrs).Quiet :=
  H.body _ (H.members (H.val fuel) _ _ _)

/-! ## Readers -/

theorem ro_readList {rd : Nat → P π (Dyn × GoErr)} (h : ∀ i, (rd i).ReadOnly) : ∀ n i l, (genReadList L rd n i l).ReadOnly
  | 0, _, _ => .pure _
  | n + 1, i, l => by
    unfold genReadList
    refine .bind (h i) fun x => .ite (.pure _) ?_
    refine .bind ?_ fun l => ro_readList h n (i + 1) l
    cases l.push L x.1 <;> exact fun _ => trivial

theorem ro_readSet {rd : Nat → P π (Dyn × GoErr)} (h : ∀ i, (rd i).ReadOnly) : ∀ n i l, (genReadSet L rd n i l).ReadOnly
  | 0, _, _ => .pure _
  | n + 1, i, l => by
    unfold genReadSet
    refine .bind (h i) fun x => .ite (.pure _) ?_
    refine .bind ?_ fun l => ro_readSet h n (i + 1) l
    cases l.add L x.1 <;> exact fun _ => trivial

theorem ro_readMap {rk rv : Nat → P π (Dyn × GoErr)} (h : ∀ i, (rk i).ReadOnly) (h' : ∀ i, (rv i).ReadOnly) :
    ∀ n i l, (genReadMap L rk rv n i l).ReadOnly
  | 0, _, _ => .pure _
  | n + 1, i, l => by
    unfold genReadMap
    refine .bind (h _) fun x => .ite (.pure _) (.bind (h' _) fun y => .ite (.pure _) ?_)
    refine .bind ?_ fun l => ro_readMap h h' n (i + 1) l
    cases l.set L x.1 y.1 <;> exact fun _ => trivial

theorem ro_readMember {rd : Bytes → Bytes → Member → P π (Dyn × GoErr)} (h : ∀ a b m, (rd a b m).ReadOnly) {sk : TType → P π GoErr}
    (hs : ∀ t, (sk t).ReadOnly) (sd : StructDef) (attrs : List (Int × Dyn)) (name : Bytes) (t : TType) (id : I16) :
    (genReadMember rd sk sd attrs name t id).ReadOnly := by
  unfold genReadMember
  split
  · rename_i m _
    have h1 := h m.name sd.name m
    have h2 := hs t
    readonly
  · have h2 := hs t
    readonly

theorem Proto.Reads.genFields (R : p.Reads) {rd : Bytes → Bytes → Member → P π (Dyn × GoErr)} (h : ∀ a b m, (rd a b m).ReadOnly)
    {sk : TType → P π GoErr} (hs : ∀ t, (sk t).ReadOnly) (sd : StructDef) : ∀ n attrs, (genReadFields p rd sk sd n attrs).ReadOnly
  | 0, _ => .stuck
  | n + 1, attrs => by
    unfold genReadFields
    refine .bind R.fieldBegin fun x => ?_
    refine .ite (.pure _) (.ite (.pure _) (.bind (ro_readMember h hs _ _ _ _ _) fun y => .ite (.pure _) (.bind R.fieldEnd fun e => .ite (.pure _) ?_)))
    exact Proto.Reads.genFields R h hs sd n _

theorem Proto.Reads.genBody (R : p.Reads) (sd : StructDef) (attrs : List (Int × Dyn))
    {f : List (Int × Dyn) → P π (List (Int × Dyn) × GoErr)} (h : ∀ a, (f a).ReadOnly) : (genReadBody p sd attrs f).ReadOnly := by
  unfold genReadBody
  exact .bind R.structBegin fun x => .ite (.pure _) (.bind (h _) fun y => .ite (.pure _) (.bind R.structEnd fun e => .pure _))

theorem Proto.Reads.genVal (R : p.Reads) : ∀ fuel path fn sn ty, (genReadVal p S L mem msd fuel path fn sn ty).ReadOnly
  | 0, _, _, _, _ => .stuck
  | fuel + 1, path, fn, sn, ty => by
    have ih := Proto.Reads.genVal R fuel
    unfold genReadVal
    cases ty with
    | bool => exact .bind R.bool fun _ => .pure _
    | byte => exact .bind R.byte fun _ => .pure _
    | i16 => exact .bind R.i16 fun _ => .pure _
    | i32 => exact .bind R.i32 fun _ => .pure _
    | i64 => exact .bind R.i64 fun _ => .pure _
    | double => exact .bind R.double fun _ => .pure _
    | string => exact .bind R.string fun _ => .pure _
    | binary => exact .bind R.binary fun _ => .pure _
    | enum k => exact .bind R.i32 fun _ => .pure _
    | struct k =>
      exact .bind (R.genBody _ _ fun a => R.genFields (fun _ _ _ => ih _ _ _ _) (fun t => R.skip msd fuel t _) _ _ a) fun _ => .pure _
    | list e =>
      exact .bind R.listBegin fun _ => .ite (.pure _) (.bind (ro_readList (fun _ => ih _ _ _ _) _ _ _) fun _ => .ite (.pure _)
        (.bind R.listEnd fun _ => .pure _))
    | set e =>
      exact .bind R.setBegin fun _ => .ite (.pure _) (.bind (ro_readSet (fun _ => ih _ _ _ _) _ _ _) fun _ => .ite (.pure _)
        (.bind R.setEnd fun _ => .pure _))
    | map k v =>
      exact .bind R.mapBegin fun _ => .ite (.pure _) (.bind (ro_readMap (fun _ => ih _ _ _ _) (fun _ => ih _ _ _ _) _ _ _) fun _ =>
        .ite (.pure _) (.bind R.mapEnd fun _ => .pure _))

theorem Proto.Reads.gen (R : p.Reads) (fuel : Nat) (path : List Nat) (sd : StructDef) : (genRead p S L mem msd fuel path sd).ReadOnly :=
  R.genBody _ _ fun a => R.genFields (fun _ _ _ => R.genVal _ _ _ _ _) (fun t => R.skip msd fuel t _) _ _ a

theorem Proto.Reads.appField (R : p.Reads) (fuel : Nat) (x : AppExc) (t : TType) (id : I16) :
    (appReadField p msd fuel x t id).ReadOnly := by
  have h1 := R.string
  have h2 := R.i32
  have h3 : (skipDefaultDepth p msd fuel t).ReadOnly := R.skip msd fuel t _
  unfold appReadField; readonly

theorem Proto.Reads.appFields (R : p.Reads) (fuel : Nat) : ∀ n x, (appReadFields p msd fuel n x).ReadOnly
  | 0, _ => .stuck
  | n + 1, x => by
    unfold appReadFields
    refine .bind R.fieldBegin fun x => ?_
    refine .ite (.pure _) (.ite (.pure _) (.bind (R.appField _ _ _ _) fun y => .ite (.pure _) (.bind R.fieldEnd fun e => .ite (.pure _) ?_)))
    exact Proto.Reads.appFields R fuel n _

theorem Proto.Reads.app (R : p.Reads) (fuel : Nat) : (appRead p msd fuel).ReadOnly := by
  unfold appRead
  exact .bind R.structBegin fun x => .ite (.pure _) (.bind (R.appFields _ _ _) fun y => .ite (.pure _) (.bind R.structEnd fun e => .pure _))

end
end Thrift
