import Verif.Spec.Asks
/-!
# Properties of readers that follow from those of the read calls
-/

namespace Thrift

/-- A property of programs that holds of whatever is put together from programs
that have it. -/
structure Composes (Φ : (α : Type) → P π α → Prop) : Prop where
  pure : ∀ {α} (a : α), Φ α (Pure.pure a)
  bind : ∀ {α β} {m : P π α} {f : α → P π β}, Φ α m → (∀ a, Φ β (f a)) → Φ β (m >>= f)
  panic : ∀ {α}, Φ α P.panic
  stuck : ∀ {α}, Φ α P.stuck

/-- All read calls of a protocol have the property. -/
structure Proto.Have (p : Proto π) (Φ : (α : Type) → P π α → Prop) : Prop where
  messageBegin : Φ _ p.readMessageBegin
  messageEnd : Φ _ p.readMessageEnd
  structBegin : Φ _ p.readStructBegin
  structEnd : Φ _ p.readStructEnd
  fieldBegin : Φ _ p.readFieldBegin
  fieldEnd : Φ _ p.readFieldEnd
  mapBegin : Φ _ p.readMapBegin
  mapEnd : Φ _ p.readMapEnd
  listBegin : Φ _ p.readListBegin
  listEnd : Φ _ p.readListEnd
  setBegin : Φ _ p.readSetBegin
  setEnd : Φ _ p.readSetEnd
  bool : Φ _ p.readBool
  byte : Φ _ p.readByte
  i16 : Φ _ p.readI16
  i32 : Φ _ p.readI32
  i64 : Φ _ p.readI64
  double : Φ _ p.readDouble
  string : Φ _ p.readString
  binary : Φ _ p.readBinary

section
variable {Φ : (α : Type) → P π α → Prop} (C : Composes Φ) {p : Proto π} (R : p.Have Φ)
include C

set_option linter.unusedSectionVars false in
theorem Composes.ite {c : Prop} [Decidable c] {a b : P π α} (ha : Φ α a) (hb : Φ α b) : Φ α (if c then a else b) := by
  split <;> assumption

theorem Composes.ofRes (r : Res α) : Φ α (P.ofRes r) := by
  cases r
  · exact C.pure _
  · exact C.panic
  · exact C.stuck

theorem Composes.repeatN {m : P π Unit} (hm : Φ _ m) : ∀ n, Φ _ (Thrift.repeatN n m)
  | 0 => C.pure _
  | n + 1 => C.bind hm fun _ => Composes.repeatN hm n

include R

theorem Composes.skipFields {sk : TType → P π GoErr} (hs : ∀ t, Φ _ (sk t)) : ∀ n, Φ _ (Thrift.skipFields p sk n)
  | 0 => C.stuck
  | n + 1 => by
    unfold Thrift.skipFields
    exact C.bind R.fieldBegin fun x => C.ite (C.pure _) (C.bind (hs _) fun _ => C.bind R.fieldEnd fun _ => Composes.skipFields hs n)

theorem Composes.skip (msd : Int) : ∀ (f : Nat) (t : TType) (d : Int), Φ _ (Thrift.skip p msd f t d)
  | 0, _, _ => C.stuck
  | f + 1, t, d => by
    have ih := Composes.skip msd f
    have ret : ∀ {α} {m : P π (α × GoErr)}, Φ _ m → Φ _ (do return (← m).2 : P π GoErr) :=
      fun h => C.bind h fun _ => C.pure _
    unfold Thrift.skip
    refine C.ite (C.pure _) (C.ite (ret R.bool) (C.ite (ret R.byte) (C.ite (ret R.i16) (C.ite (ret R.i32) (C.ite (ret R.i64)
      (C.ite (ret R.double) (C.ite (ret R.string) (C.ite ?_ (C.ite ?_ (C.ite ?_ (C.ite ?_ (C.pure _))))))))))))
    · exact C.bind R.structBegin fun _ => C.ite (C.pure _) (C.bind (C.skipFields R (fun t => ih t _) f) fun _ => R.structEnd)
    · exact C.bind R.mapBegin fun _ => C.ite (C.pure _) (C.bind (C.repeatN (C.bind (ih _ _) fun _ => C.bind (ih _ _) fun _ => C.pure _) _)
        fun _ => R.mapEnd)
    · exact C.bind R.setBegin fun _ => C.ite (C.pure _) (C.bind (C.repeatN (C.bind (ih _ _) fun _ => C.pure _) _) fun _ => R.setEnd)
    · exact C.bind R.listBegin fun _ => C.ite (C.pure _) (C.bind (C.repeatN (C.bind (ih _ _) fun _ => C.pure _) _) fun _ => R.listEnd)

variable {S : Schema} {L : FloatLib} {mem : List Nat → Nat} {msd : Int}

omit R in
theorem Composes.readList {rd : Nat → P π (Dyn × GoErr)} (h : ∀ i, Φ _ (rd i)) : ∀ n i l, Φ _ (genReadList L rd n i l)
  | 0, _, _ => C.pure _
  | n + 1, i, l => by
    unfold genReadList
    exact C.bind (h i) fun x => C.ite (C.pure _) (C.bind (C.ofRes _) fun l => Composes.readList h n (i + 1) l)

omit R in
theorem Composes.readSet {rd : Nat → P π (Dyn × GoErr)} (h : ∀ i, Φ _ (rd i)) : ∀ n i l, Φ _ (genReadSet L rd n i l)
  | 0, _, _ => C.pure _
  | n + 1, i, l => by
    unfold genReadSet
    exact C.bind (h i) fun x => C.ite (C.pure _) (C.bind (C.ofRes _) fun l => Composes.readSet h n (i + 1) l)

omit R in
theorem Composes.readMap {rk rv : Nat → P π (Dyn × GoErr)} (h : ∀ i, Φ _ (rk i)) (h' : ∀ i, Φ _ (rv i)) :
    ∀ n i l, Φ _ (genReadMap L rk rv n i l)
  | 0, _, _ => C.pure _
  | n + 1, i, l => by
    unfold genReadMap
    exact C.bind (h _) fun x => C.ite (C.pure _) (C.bind (h' _) fun y => C.ite (C.pure _)
      (C.bind (C.ofRes _) fun l => Composes.readMap h h' n (i + 1) l))

omit R in
theorem Composes.readMember {rd : Bytes → Bytes → Member → P π (Dyn × GoErr)} (h : ∀ a b m, Φ _ (rd a b m)) {sk : TType → P π GoErr}
    (hs : ∀ t, Φ _ (sk t)) (sd : StructDef) (attrs : List (Int × Dyn)) (name : Bytes) (t : TType) (id : I16) :
    Φ _ (genReadMember rd sk sd attrs name t id) := by
  unfold genReadMember
  split
  · exact C.ite (C.bind (h _ _ _) fun _ => C.pure _) (C.ite (C.bind (hs _) fun _ => C.pure _) (C.bind (h _ _ _) fun _ => C.pure _))
  · exact C.bind (hs _) fun _ => C.pure _

theorem Composes.genFields {rd : Bytes → Bytes → Member → P π (Dyn × GoErr)} (h : ∀ a b m, Φ _ (rd a b m))
    {sk : TType → P π GoErr} (hs : ∀ t, Φ _ (sk t)) (sd : StructDef) : ∀ n attrs, Φ _ (genReadFields p rd sk sd n attrs)
  | 0, _ => C.stuck
  | n + 1, attrs => by
    unfold genReadFields
    exact C.bind R.fieldBegin fun x => C.ite (C.pure _) (C.ite (C.pure _) (C.bind (C.readMember h hs _ _ _ _ _) fun y =>
      C.ite (C.pure _) (C.bind R.fieldEnd fun e => C.ite (C.pure _) (Composes.genFields h hs sd n _))))

theorem Composes.genBody (sd : StructDef) (attrs : List (Int × Dyn))
    {f : List (Int × Dyn) → P π (List (Int × Dyn) × GoErr)} (h : ∀ a, Φ _ (f a)) : Φ _ (genReadBody p sd attrs f) := by
  unfold genReadBody
  exact C.bind R.structBegin fun x => C.ite (C.pure _) (C.bind (h _) fun y => C.ite (C.pure _) (C.bind R.structEnd fun e => C.pure _))

theorem Composes.genVal : ∀ fuel path fn sn ty, Φ _ (genReadVal p S L mem msd fuel path fn sn ty)
  | 0, _, _, _, _ => C.stuck
  | fuel + 1, path, fn, sn, ty => by
    have ih := Composes.genVal fuel
    unfold genReadVal
    cases ty with
    | bool => exact C.bind R.bool fun _ => C.pure _
    | byte => exact C.bind R.byte fun _ => C.pure _
    | i16 => exact C.bind R.i16 fun _ => C.pure _
    | i32 => exact C.bind R.i32 fun _ => C.pure _
    | i64 => exact C.bind R.i64 fun _ => C.pure _
    | double => exact C.bind R.double fun _ => C.pure _
    | string => exact C.bind R.string fun _ => C.pure _
    | binary => exact C.bind R.binary fun _ => C.pure _
    | enum k => exact C.bind R.i32 fun _ => C.pure _
    | struct k =>
      exact C.bind (C.genBody R _ _ fun a => C.genFields R (fun _ _ _ => ih _ _ _ _) (fun t => C.skip R msd fuel t _) _ _ a)
        fun _ => C.pure _
    | list e =>
      exact C.bind R.listBegin fun _ => C.ite (C.pure _) (C.bind (C.readList (fun _ => ih _ _ _ _) _ _ _) fun _ => C.ite (C.pure _)
        (C.bind R.listEnd fun _ => C.pure _))
    | set e =>
      exact C.bind R.setBegin fun _ => C.ite (C.pure _) (C.bind (C.readSet (fun _ => ih _ _ _ _) _ _ _) fun _ => C.ite (C.pure _)
        (C.bind R.setEnd fun _ => C.pure _))
    | map k v =>
      exact C.bind R.mapBegin fun _ => C.ite (C.pure _) (C.bind (C.readMap (fun _ => ih _ _ _ _) (fun _ => ih _ _ _ _) _ _ _) fun _ =>
        C.ite (C.pure _) (C.bind R.mapEnd fun _ => C.pure _))

theorem Composes.gen (fuel : Nat) (path : List Nat) (sd : StructDef) : Φ _ (genRead p S L mem msd fuel path sd) :=
  C.genBody R _ _ fun a => C.genFields R (fun _ _ _ => C.genVal R _ _ _ _ _) (fun t => C.skip R msd fuel t _) _ _ a

theorem Composes.appFields (fuel : Nat) : ∀ n x, Φ _ (appReadFields p msd fuel n x)
  | 0, _ => C.stuck
  | n + 1, x => by
    unfold appReadFields
    refine C.bind R.fieldBegin fun y => C.ite (C.pure _) (C.ite (C.pure _) (C.bind ?_ fun z => C.ite (C.pure _)
      (C.bind R.fieldEnd fun _ => C.ite (C.pure _) (Composes.appFields fuel n _))))
    unfold appReadField
    exact C.ite (C.bind R.string fun _ => C.pure _) (C.ite (C.bind R.i32 fun _ => C.pure _) (C.bind (C.skip R _ _ _ _) fun _ => C.pure _))

theorem Composes.app (fuel : Nat) : Φ _ (appRead p msd fuel) := by
  unfold appRead
  exact C.bind R.structBegin fun _ => C.ite (C.pure _) (C.bind (C.appFields R fuel _ _) fun _ => C.ite (C.pure _)
    (C.bind R.structEnd fun _ => C.pure _))

/-- Whatever is read. -/
theorem Composes.call (fuel : Nat) (c : AnyRead) : Φ _ (c.call p S L mem msd fuel) := by
  cases c with
  | message => exact C.bind R.messageBegin fun _ => C.pure _
  | messageEnd => exact C.bind R.messageEnd fun _ => C.pure _
  | structBegin => exact C.bind R.structBegin fun _ => C.pure _
  | structEnd => exact C.bind R.structEnd fun _ => C.pure _
  | field => exact C.bind R.fieldBegin fun _ => C.pure _
  | fieldEnd => exact C.bind R.fieldEnd fun _ => C.pure _
  | map => exact C.bind R.mapBegin fun _ => C.pure _
  | mapEnd => exact C.bind R.mapEnd fun _ => C.pure _
  | list => exact C.bind R.listBegin fun _ => C.pure _
  | listEnd => exact C.bind R.listEnd fun _ => C.pure _
  | set => exact C.bind R.setBegin fun _ => C.pure _
  | setEnd => exact C.bind R.setEnd fun _ => C.pure _
  | bool => exact C.bind R.bool fun _ => C.pure _
  | byte => exact C.bind R.byte fun _ => C.pure _
  | i16 => exact C.bind R.i16 fun _ => C.pure _
  | i32 => exact C.bind R.i32 fun _ => C.pure _
  | i64 => exact C.bind R.i64 fun _ => C.pure _
  | double => exact C.bind R.double fun _ => C.pure _
  | string => exact C.bind R.string fun _ => C.pure _
  | binary => exact C.bind R.binary fun _ => C.pure _
  | skip t => exact C.bind (C.skip R _ _ _ _) fun _ => C.pure _
  | object sd => exact C.bind (C.gen R _ _ _) fun _ => C.pure _
  | exception => exact C.bind (C.app R _) fun _ => C.pure _

theorem Composes.calls (fuel : Nat) : ∀ cs, Φ _ (AnyRead.calls p S L mem msd fuel cs)
  | [] => C.pure _
  | c :: cs => C.bind (C.call R fuel c) fun _ => Composes.calls fuel cs

end
end Thrift
