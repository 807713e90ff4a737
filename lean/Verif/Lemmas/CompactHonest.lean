import Verif.Lemmas.Honest
import Verif.Lemmas.CompactValue
/-!
# Which compact reads report the end of the input
-/

namespace Thrift
open CompactProtocol

namespace Cmp

theorem honest_byte : Honest Prod.snd readByte := by
  refine (Honest.readAll 1).bind (fun a h => ?_) fun a h => ?_
  · exact Honest.ite (Honest.pure _ _) (Honest.pure _ _)
  · rw [if_pos h]
    exact Fails.pure (isSome_protocolFromOsError _ h)

theorem honest_varintLoop : ∀ fuel shift result, Honest Prod.snd (readVarint64Loop fuel shift result)
  | 0, _, _ => Honest.stuck _
  | fuel + 1, shift, result => by
    unfold readVarint64Loop
    exact Honest.check (w := id) (fun _ h => h) honest_byte fun _ =>
      Honest.ite (Honest.pure _ _) (honest_varintLoop fuel _ _)

theorem honest_varint64 (f : Nat) : Honest Prod.snd (readVarint64 f) := honest_varintLoop f 0 0
theorem honest_varint32 (f : Nat) : Honest Prod.snd (readVarint32 f) :=
  Honest.map (w := id) (fun _ h => h) (honest_varint64 f)
theorem honest_i32 (f : Nat) : Honest Prod.snd (readI32 f) :=
  Honest.check isSome_protocolFromOsError (honest_varint32 f) fun _ => Honest.pure _ _
theorem honest_i16 (f : Nat) : Honest Prod.snd (readI16 f) :=
  Honest.map (w := id) (fun _ h => h) (honest_i32 f)
theorem honest_i64 (f : Nat) : Honest Prod.snd (readI64 f) :=
  Honest.check isSome_protocolFromOsError (honest_varint64 f) fun _ => Honest.pure _ _

theorem honest_double : Honest Prod.snd readDouble := by
  refine (Honest.readAll 8).bind (fun a h => ?_) fun a h => ?_
  · exact Honest.ite (Honest.pure _ _) (Honest.pure _ _)
  · rw [if_pos h]
    exact Fails.pure (isSome_protocolFromOsError _ h)

theorem honest_bool : Honest Prod.snd readBool := by
  unfold readBool
  refine (Honest.get (fun _ => none)).bind (fun s _ => ?_) (fun _ h => by simp at h)
  refine Honest.ite ?_ (Honest.map (w := id) (fun _ h => h) honest_byte)
  exact (Honest.modify (fun _ => none) _).bind (fun _ _ => Honest.pure _ _) (fun _ h => by simp at h)

theorem honest_listBegin (f : Nat) : Honest Prod.snd (readListBegin f) := by
  unfold readListBegin
  refine Honest.check (w := id) (fun _ h => h) honest_byte fun b => ?_
  have tail : ∀ size : Int, Honest Prod.snd (do
      let r := getTType b
      if r.2.isSome then return ((r.1, size), protocolFromOsError r.2)
      return ((r.1, size), none) : P Cmp ((TType × Int) × GoErr)) :=
    fun size => Honest.ite (Honest.pure _ _) (Honest.pure _ _)
  refine Honest.ite ?_ ?_
  · refine Honest.check isSome_protocolFromOsError (m := do
      let (size2, e) ← readVarint32 f
      return (if e.isSome then _ else size2.toInt, e)) ?_ fun size => tail size
    exact Honest.map (w := id) (fun _ h => h) (honest_varint32 f)
  · exact Honest.check isSome_protocolFromOsError (Honest.pure _ _) fun size => tail size

theorem honest_mapBegin (f : Nat) : Honest Prod.snd (readMapBegin f) := by
  unfold readMapBegin
  refine Honest.check isSome_protocolFromOsError (honest_varint32 f) fun n => ?_
  exact Honest.ite (Honest.check (w := id) (fun _ h => h) honest_byte fun _ => Honest.pure _ _)
    (Honest.check (w := id) (fun _ h => h) (Honest.pure _ _) fun _ => Honest.pure _ _)

theorem honest_fieldBegin (f : Nat) : Honest Prod.snd (readFieldBegin f) := by
  unfold readFieldBegin
  refine Honest.check (w := id) (fun _ h => h) honest_byte fun b => ?_
  refine Honest.ite (Honest.pure _ _) ?_
  refine (Honest.get (fun _ => none)).bind (fun s _ => ?_) (fun _ h => by simp at h)
  have tail : ∀ id : I16, Honest Prod.snd (do
      let r := getTType (b &&& 0x0f)
      if r.2.isSome then return (([], r.1, id), protocolFromOsError r.2)
      if isBoolType b then
        P.modify fun s => { s with boolValue := b &&& 0x0f = CT.BOOLEAN_TRUE, boolValueIsNotNull := true }
      P.modify fun s => { s with lastFieldId := id.toInt }
      return (([], r.1, id), none) : P Cmp ((Bytes × TType × I16) × GoErr)) := by
    intro id
    refine Honest.ite (Honest.pure _ _) ?_
    have h2 : Honest Prod.snd (do
        P.modify fun s => { s with lastFieldId := id.toInt }
        return (([], (getTType (b &&& 0x0f)).1, id), none) : P Cmp ((Bytes × TType × I16) × GoErr)) :=
      (Honest.modify (fun _ => none) _).bind (fun _ _ => Honest.pure _ _) (fun _ h => by simp at h)
    refine Honest.ite ?_ h2
    exact (Honest.modify (fun _ => none) _).bind (fun _ _ => h2) (fun _ h => by simp at h)
  refine Honest.ite ?_ ?_
  · exact Honest.check (w := id) (fun _ h => h) (honest_i16 f) fun id => tail id
  · exact Honest.check (w := id) (fun _ h => h) (Honest.pure _ _) fun id => tail id

end Cmp
end Thrift
