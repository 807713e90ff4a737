import Verif.Lemmas.Tells
import Verif.Model.Skip
/-!
# Readers leave the binary protocol object as it is

Without a read limit.
-/

namespace Thrift

/-- The results come with the object as it was. -/
def P.Keeps (m : P Bin α) : Prop := ∀ s, s.checkReadLength = false → (m s).All fun x => x.2 = s

namespace P.Keeps
theorem pure (a : α) : Keeps (Pure.pure a : P Bin α) := fun _ _ => rfl
theorem bind {m : P Bin α} {f : α → P Bin β} (hm : Keeps m) (hf : ∀ a, Keeps (f a)) : Keeps (m >>= f) := fun s hs =>
  Prog.All.bind (hm s hs) <| by
    rintro ⟨a, s'⟩ rfl
    exact hf a s' hs
theorem get : Keeps (P.get : P Bin Bin) := fun _ _ => rfl
theorem panic : Keeps (P.panic : P Bin α) := fun _ _ => trivial
theorem stuck : Keeps (P.stuck : P Bin α) := fun _ _ => trivial
theorem readAll (n : Nat) : Keeps (P.readAll n : P Bin _) := fun _ _ _ => rfl
theorem ite {c : Prop} [Decidable c] {a b : P Bin α} (ha : Keeps a) (hb : Keeps b) : Keeps (if c then a else b) := by
  split <;> assumption
end P.Keeps

/-- Close goals `P.Keeps m` by following the text of `m`. -/
macro "keeping" : tactic => `(tactic| repeat' first
  | exact P.Keeps.pure _ | exact P.Keeps.get | exact P.Keeps.panic | exact P.Keeps.stuck | exact P.Keeps.readAll _ | assumption
  | apply P.Keeps.ite | (refine P.Keeps.bind ?_ fun _ => ?_) | split)

/-- All read calls of a protocol keep the object. -/
structure Proto.Keeping (p : Proto Bin) : Prop where
  messageBegin : p.readMessageBegin.Keeps
  messageEnd : p.readMessageEnd.Keeps
  structBegin : p.readStructBegin.Keeps
  structEnd : p.readStructEnd.Keeps
  fieldBegin : p.readFieldBegin.Keeps
  fieldEnd : p.readFieldEnd.Keeps
  mapBegin : p.readMapBegin.Keeps
  mapEnd : p.readMapEnd.Keeps
  listBegin : p.readListBegin.Keeps
  listEnd : p.readListEnd.Keeps
  setBegin : p.readSetBegin.Keeps
  setEnd : p.readSetEnd.Keeps
  bool : p.readBool.Keeps
  byte : p.readByte.Keeps
  i16 : p.readI16.Keeps
  i32 : p.readI32.Keeps
  i64 : p.readI64.Keeps
  double : p.readDouble.Keeps
  string : p.readString.Keeps
  binary : p.readBinary.Keeps

section
open BinaryProtocol

theorem Bin.keeps_check (n : Int) : (BinaryProtocol.checkReadLength n).Keeps := by
  intro s hs
  show (if s.checkReadLength = true then _ else _ : P Bin GoErr) s |>.All _
  rw [hs]
  exact rfl
theorem Bin.keeps_buf (n : Nat) : (readAllBuf n).Keeps := by
  have := Bin.keeps_check n
  unfold readAllBuf; keeping
theorem Bin.keeps_byte : readByte.Keeps := by have := Bin.keeps_buf 1; unfold readByte; keeping
theorem Bin.keeps_i16 : readI16.Keeps := by have := Bin.keeps_buf 2; unfold readI16; keeping
theorem Bin.keeps_i32 : readI32.Keeps := by have := Bin.keeps_buf 4; unfold readI32; keeping
theorem Bin.keeps_body (n : Int) : (readStringBody n).Keeps := by
  have := Bin.keeps_check n
  unfold readStringBody; keeping
theorem Bin.keeps_string : readString.Keeps := by
  have := Bin.keeps_i32
  unfold readString
  refine P.Keeps.bind this fun x => ?_
  have := Bin.keeps_body x.1.toInt
  keeping

theorem binary_keeping : binary.Keeping where
  messageBegin := by
    show readMessageBegin.Keeps
    have h1 := Bin.keeps_i32
    have h2 := Bin.keeps_string
    have h3 := Bin.keeps_byte
    unfold readMessageBegin
    refine P.Keeps.bind h1 fun x => ?_
    have h4 := Bin.keeps_body x.1.toInt
    keeping
  messageEnd := P.Keeps.pure _
  structBegin := P.Keeps.pure _
  structEnd := P.Keeps.pure _
  fieldBegin := by
    show readFieldBegin.Keeps
    have h1 := Bin.keeps_i16
    have h2 := Bin.keeps_byte
    unfold readFieldBegin; keeping
  fieldEnd := P.Keeps.pure _
  mapBegin := by
    show readMapBegin.Keeps
    have h1 := Bin.keeps_i32
    have h2 := Bin.keeps_byte
    unfold readMapBegin; keeping
  mapEnd := P.Keeps.pure _
  listBegin := by
    show readListBegin.Keeps
    have h1 := Bin.keeps_i32
    have h2 := Bin.keeps_byte
    unfold readListBegin; keeping
  listEnd := P.Keeps.pure _
  setBegin := by
    show readListBegin.Keeps
    have h1 := Bin.keeps_i32
    have h2 := Bin.keeps_byte
    unfold readListBegin; keeping
  setEnd := P.Keeps.pure _
  bool := by
    show readBool.Keeps
    have h2 := Bin.keeps_byte
    unfold readBool; keeping
  byte := Bin.keeps_byte
  i16 := Bin.keeps_i16
  i32 := Bin.keeps_i32
  i64 := by
    show readI64.Keeps
    have := Bin.keeps_buf 8
    unfold readI64; keeping
  double := by
    show readDouble.Keeps
    have := Bin.keeps_buf 8
    unfold readDouble; keeping
  string := Bin.keeps_string
  binary := by
    show readBinary.Keeps
    have h1 := Bin.keeps_i32
    unfold readBinary
    refine P.Keeps.bind h1 fun x => ?_
    have := Bin.keeps_check x.1.toInt
    keeping

end

theorem keeps_repeatN {m : P Bin Unit} (hm : m.Keeps) : ∀ n, (repeatN n m).Keeps
  | 0 => P.Keeps.pure _
  | n + 1 => P.Keeps.bind hm fun _ => keeps_repeatN hm n

theorem Proto.Keeping.skipFields {p : Proto Bin} (R : p.Keeping) {sk : TType → P Bin GoErr} (hs : ∀ t, (sk t).Keeps) :
    ∀ n, (skipFields p sk n).Keeps
  | 0 => P.Keeps.stuck
  | n + 1 => by
    have h1 := R.fieldBegin
    have h2 := R.fieldEnd
    have h3 := Proto.Keeping.skipFields R hs n
    unfold Thrift.skipFields
    refine P.Keeps.bind h1 fun x => ?_
    have h4 := hs x.1.2.1
    keeping

theorem Proto.Keeping.skip {p : Proto Bin} (R : p.Keeping) (msd : Int) : ∀ (f : Nat) (t : TType) (d : Int),
    (Thrift.skip p msd f t d).Keeps
  | 0, _, _ => P.Keeps.stuck
  | f + 1, t, d => by
    have ih := Proto.Keeping.skip R msd f
    unfold Thrift.skip
    have ret : ∀ {α} {m : P Bin (α × GoErr)}, m.Keeps → (do return (← m).2 : P Bin GoErr).Keeps :=
      fun h => P.Keeps.bind h fun _ => P.Keeps.pure _
    refine .ite (.pure _) ?_
    refine .ite (ret R.bool) ?_
    refine .ite (ret R.byte) ?_
    refine .ite (ret R.i16) ?_
    refine .ite (ret R.i32) ?_
    refine .ite (ret R.i64) ?_
    refine .ite (ret R.double) ?_
    refine .ite (ret R.string) ?_
    refine .ite ?_ ?_
    · have h1 := R.structBegin
      have h2 := R.structEnd
      have h3 := Proto.Keeping.skipFields R (fun t => ih t (d - 1)) f
      keeping
    refine .ite ?_ ?_
    · refine P.Keeps.bind R.mapBegin fun x => ?_
      have h2 := R.mapEnd
      have h3 : ∀ n, (repeatN n (do
        let _ ← Thrift.skip p msd f x.1.1 (d - 1)
        let _ ← Thrift.skip p msd f x.1.2.1 msd
        return ())).Keeps := keeps_repeatN (.bind (ih _ _) fun _ => .bind (ih _ _) fun _ => .pure _)
      have h4 := h3 x.1.2.2.toNat
      keeping
    refine .ite ?_ ?_
    · refine P.Keeps.bind R.setBegin fun x => ?_
      have h2 := R.setEnd
      have h3 : ∀ n, (repeatN n (do let _ ← Thrift.skip p msd f x.1.1 (d - 1); return ())).Keeps :=
        keeps_repeatN (.bind (ih _ _) fun _ => .pure _)
      have h4 := h3 x.1.2.toNat
      keeping
    refine .ite ?_ (.pure _)
    · refine P.Keeps.bind R.listBegin fun x => ?_
      have h2 := R.listEnd
      have h3 : ∀ n, (repeatN n (do let _ ← Thrift.skip p msd f x.1.1 (d - 1); return ())).Keeps :=
        keeps_repeatN (.bind (ih _ _) fun _ => .pure _)
      have h4 := h3 x.1.2.toNat
      keeping

section
variable {p : Proto Bin} {S : Schema} {L : FloatLib} {mem : List Nat → Nat} {msd : Int}

theorem keeps_readList {rd : Nat → P Bin (Dyn × GoErr)} (h : ∀ i, (rd i).Keeps) : ∀ n i l, (genReadList L rd n i l).Keeps
  | 0, _, _ => .pure _
  | n + 1, i, l => by
    unfold genReadList
    refine .bind (h i) fun x => .ite (.pure _) ?_
    refine .bind ?_ fun l => keeps_readList h n (i + 1) l
    cases l.push L x.1 <;> first | exact .pure _ | exact .panic | exact .stuck

theorem keeps_readSet {rd : Nat → P Bin (Dyn × GoErr)} (h : ∀ i, (rd i).Keeps) : ∀ n i l, (genReadSet L rd n i l).Keeps
  | 0, _, _ => .pure _
  | n + 1, i, l => by
    unfold genReadSet
    refine .bind (h i) fun x => .ite (.pure _) ?_
    refine .bind ?_ fun l => keeps_readSet h n (i + 1) l
    cases l.add L x.1 <;> first | exact .pure _ | exact .panic | exact .stuck

theorem keeps_readMap {rk rv : Nat → P Bin (Dyn × GoErr)} (h : ∀ i, (rk i).Keeps) (h' : ∀ i, (rv i).Keeps) :
    ∀ n i l, (genReadMap L rk rv n i l).Keeps
  | 0, _, _ => .pure _
  | n + 1, i, l => by
    unfold genReadMap
    refine .bind (h _) fun x => .ite (.pure _) (.bind (h' _) fun y => .ite (.pure _) ?_)
    refine .bind ?_ fun l => keeps_readMap h h' n (i + 1) l
    cases l.set L x.1 y.1 <;> first | exact .pure _ | exact .panic | exact .stuck

theorem keeps_readMember {rd : Bytes → Bytes → Member → P Bin (Dyn × GoErr)} (h : ∀ a b m, (rd a b m).Keeps) {sk : TType → P Bin GoErr}
    (hs : ∀ t, (sk t).Keeps) (sd : StructDef) (attrs : List (Int × Dyn)) (name : Bytes) (t : TType) (id : I16) :
    (genReadMember rd sk sd attrs name t id).Keeps := by
  unfold genReadMember
  split
  · rename_i m _
    have h1 := h m.name sd.name m
    have h2 := hs t
    keeping
  · have h2 := hs t
    keeping

theorem Proto.Keeping.genFields (R : p.Keeping) {rd : Bytes → Bytes → Member → P Bin (Dyn × GoErr)} (h : ∀ a b m, (rd a b m).Keeps)
    {sk : TType → P Bin GoErr} (hs : ∀ t, (sk t).Keeps) (sd : StructDef) : ∀ n attrs, (genReadFields p rd sk sd n attrs).Keeps
  | 0, _ => .stuck
  | n + 1, attrs => by
    unfold genReadFields
    refine .bind R.fieldBegin fun x => ?_
    refine .ite (.pure _) (.ite (.pure _) (.bind (keeps_readMember h hs _ _ _ _ _) fun y => .ite (.pure _) (.bind R.fieldEnd fun e => .ite (.pure _) ?_)))
    exact Proto.Keeping.genFields R h hs sd n _

theorem Proto.Keeping.genBody (R : p.Keeping) (sd : StructDef) (attrs : List (Int × Dyn))
    {f : List (Int × Dyn) → P Bin (List (Int × Dyn) × GoErr)} (h : ∀ a, (f a).Keeps) : (genReadBody p sd attrs f).Keeps := by
  unfold genReadBody
  exact .bind R.structBegin fun x => .ite (.pure _) (.bind (h _) fun y => .ite (.pure _) (.bind R.structEnd fun e => .pure _))

theorem Proto.Keeping.genVal (R : p.Keeping) : ∀ fuel path fn sn ty, (genReadVal p S L mem msd fuel path fn sn ty).Keeps
  | 0, _, _, _, _ => .stuck
  | fuel + 1, path, fn, sn, ty => by
    have ih := Proto.Keeping.genVal R fuel
    unfold genReadVal
    cases ty with
    | bool => exact .bind R.bool fun _ => .pure _
    | byte => exact .bind R.byte fun _ => .pure _
    | i16 => exact .bind R.i16 fun _ => .pure _
    | i32 => exact .bind R.i32 fun _ => .pure _
    | i64 => exact .bind R.i64 fun _ => .pure _
    | double => exact .bind R.double fun _ => .pure _
    | string => exact .bind R.string fun _ => .pure _
    | binary => exact .bind R.binary fun _ => .pure _
    | enum k => exact .bind R.i32 fun _ => .pure _
    | struct k =>
      exact .bind (R.genBody _ _ fun a => R.genFields (fun _ _ _ => ih _ _ _ _) (fun t => R.skip msd fuel t _) _ _ a) fun _ => .pure _
    | list e =>
      exact .bind R.listBegin fun _ => .ite (.pure _) (.bind (keeps_readList (fun _ => ih _ _ _ _) _ _ _) fun _ => .ite (.pure _)
        (.bind R.listEnd fun _ => .pure _))
    | set e =>
      exact .bind R.setBegin fun _ => .ite (.pure _) (.bind (keeps_readSet (fun _ => ih _ _ _ _) _ _ _) fun _ => .ite (.pure _)
        (.bind R.setEnd fun _ => .pure _))
    | map k v =>
      exact .bind R.mapBegin fun _ => .ite (.pure _) (.bind (keeps_readMap (fun _ => ih _ _ _ _) (fun _ => ih _ _ _ _) _ _ _) fun _ =>
        .ite (.pure _) (.bind R.mapEnd fun _ => .pure _))

theorem Proto.Keeping.gen (R : p.Keeping) (fuel : Nat) (path : List Nat) (sd : StructDef) : (genRead p S L mem msd fuel path sd).Keeps :=
  R.genBody _ _ fun a => R.genFields (fun _ _ _ => R.genVal _ _ _ _ _) (fun t => R.skip msd fuel t _) _ _ a

end

/-- What comes out of a run. -/
theorem P.Keeps.run {m : P Bin α} (h : m.Keeps) {s : Bin} (hs : s.checkReadLength = false) {T : Transport σ} {t t' : σ} {a : α} {s' : Bin}
    (hr : m.run T s t = (.ok (a, s'), t')) : s' = s := Prog.All.run (h s hs) T t t' (a, s') hr

end Thrift
