import Verif.Lemmas.Fuel
import Verif.Lemmas.SkipTotal
import Verif.Lemmas.GenWire
import Verif.Lemmas.Service
/-!
# Programs that do not panic
-/

namespace Thrift

/-- Whatever the transport answers, the program does not panic, and runs out of
fuel only if `S`. -/
def Prog.Calm (S : Prop) : Prog α → Prop
  | .ret _ => True
  | .panic => False
  | .stuck => S
  | .readAll _ k => ∀ x, (k x).Calm S
  | .write _ k => ∀ x, (k x).Calm S
  | .flush k => ∀ x, (k x).Calm S

/-- The transport does not panic. -/
structure Transport.Calm (T : Transport σ) : Prop where
  read : ∀ n s, (T.read n s).1 ≠ .panic
  write : ∀ bs s, (T.write bs s).1 ≠ .panic
  flush : ∀ s, (T.flush s).1 ≠ .panic

theorem Transport.Calm.readAll {T : Transport σ} (hT : T.Calm) (n : Nat) (s : σ) : (T.readAll n s).1 ≠ .panic := by
  have aux : ∀ (fuel : Nat) (got : Bytes) (err : GoErr) (s : σ), (readAllLoop T.read n fuel got err s).1 ≠ .panic := by
    intro fuel
    induction fuel with
    | zero => intro got err s; rw [readAllLoop]; split <;> simp
    | succ fuel ih =>
      intro got err s
      rw [readAllLoop]
      split
      · have := hT.read (n - got.length) s
        rcases h : T.read (n - got.length) s with ⟨_ | _ | _, s'⟩
        · simp only
          split
          · simp
          · exact ih _ _ _
        · rw [h] at this; simp at this
        · simp
      · simp
  exact aux _ _ _ _

namespace Prog.Calm
variable {S : Prop}

theorem bind {p : Prog α} {f : α → Prog β} (h : p.Calm S) (hf : ∀ a, (f a).Calm S) : (p.bind f).Calm S := by
  induction p with
  | ret a => exact hf a
  | panic => exact h
  | stuck => exact h
  | readAll n k ih => exact fun x => ih x (h x)
  | write bs k ih => exact fun x => ih x (h x)
  | flush k ih => exact fun x => ih x (h x)

theorem down {p q : Prog α} (h : p.Le q) (hq : q.Calm S) : p.Calm True := by
  induction p generalizing q with
  | ret a => trivial
  | panic => cases h; exact hq
  | stuck => trivial
  | readAll n k ih => obtain ⟨k', rfl, h⟩ := h; exact fun x => ih x (h x) (hq x)
  | write bs k ih => obtain ⟨k', rfl, h⟩ := h; exact fun x => ih x (h x) (hq x)
  | flush k ih => obtain ⟨k', rfl, h⟩ := h; exact fun x => ih x (h x) (hq x)

theorem up {p q : Prog α} (h : p.Le q) (hp : p.Calm False) : q.Calm False := by
  induction p generalizing q with
  | ret a => cases h; trivial
  | panic => exact hp.elim
  | stuck => exact hp.elim
  | readAll n k ih => obtain ⟨k', rfl, h⟩ := h; exact fun x => ih x (h x) (hp x)
  | write bs k ih => obtain ⟨k', rfl, h⟩ := h; exact fun x => ih x (h x) (hp x)
  | flush k ih => obtain ⟨k', rfl, h⟩ := h; exact fun x => ih x (h x) (hp x)

theorem weaken {p : Prog α} (hp : p.Calm False) : p.Calm S := by
  induction p with
  | ret a => trivial
  | panic => exact hp.elim
  | stuck => exact hp.elim
  | readAll n k ih => exact fun x => ih x (hp x)
  | write bs k ih => exact fun x => ih x (hp x)
  | flush k ih => exact fun x => ih x (hp x)

theorem run {p : Prog α} (h : p.Calm S) {T : Transport σ} (hT : T.Calm) (t : σ) : (p.run T t).1 ≠ .panic := by
  induction p generalizing t with
  | ret a => simp [Prog.run]
  | panic => exact h.elim
  | stuck => simp [Prog.run]
  | readAll n k ih =>
    have := hT.readAll n t
    rw [Prog.run]
    rcases hr : T.readAll n t with ⟨_ | _ | _, s'⟩
    · exact ih _ (h _) _
    · rw [hr] at this; simp at this
    · simp
  | write bs k ih =>
    have := hT.write bs t
    rw [Prog.run]
    rcases hr : T.write bs t with ⟨_ | _ | _, s'⟩
    · exact ih _ (h _) _
    · rw [hr] at this; simp at this
    · simp
  | flush k ih =>
    have := hT.flush t
    rw [Prog.run]
    rcases hr : T.flush t with ⟨_ | _ | _, s'⟩
    · exact ih _ (h _) _
    · rw [hr] at this; simp at this
    · simp

theorem duplex {p : Prog α} (h : p.Calm False) (t : Bytes × Bytes) : ∃ a t', p.run Thrift.duplex t = (.ok a, t') := by
  induction p generalizing t with
  | ret a => exact ⟨a, t, rfl⟩
  | panic => exact h.elim
  | stuck => exact h.elim
  | readAll n k ih =>
    obtain ⟨inp, out⟩ := t
    rw [Prog.run, duplex_readAll]
    by_cases hn : n ≤ inp.length
    · rw [if_pos hn]; exact ih _ (h _) _
    · rw [if_neg hn]; exact ih _ (h _) _
  | write bs k ih => exact ih _ (h _) _
  | flush k ih => exact ih _ (h _) _

end Prog.Calm

def P.Calm (S : Prop) (m : P π α) : Prop := ∀ s, (m s).Calm S

namespace P.Calm
variable {S : Prop}

theorem pure (a : α) : P.Calm S (Pure.pure a : P π α) := fun _ => trivial
theorem get : P.Calm S (P.get : P π π) := fun _ => trivial
theorem modify (f : π → π) : P.Calm S (P.modify f) := fun _ => trivial
theorem readAll (n : Nat) : P.Calm S (P.readAll n : P π _) := fun _ _ => trivial
theorem write (bs : Bytes) : P.Calm S (P.write bs : P π _) := fun _ _ => trivial
theorem tflush : P.Calm S (P.tflush : P π _) := fun _ _ => trivial
theorem stuck : P.Calm True (P.stuck : P π α) := fun _ => trivial

theorem bind {m : P π α} {f : α → P π β} (h : P.Calm S m) (hf : ∀ a, P.Calm S (f a)) : P.Calm S (m >>= f) :=
  fun s => Prog.Calm.bind (h s) fun a => hf a.1 a.2

theorem ite {c : Prop} [Decidable c] {a b : P π α} (ha : P.Calm S a) (hb : P.Calm S b) : P.Calm S (if c then a else b) := by
  split
  · exact ha
  · exact hb

theorem on {get : τ → π} {set : π → τ → τ} {m : P π α} (h : P.Calm S m) : P.Calm S (P.on get set m) :=
  fun s => Prog.Calm.bind (h (get s)) fun _ => trivial

theorem weaken {m : P π α} (h : P.Calm False m) : P.Calm S m := fun s => (h s).weaken
theorem up {m m' : P π α} (hl : P.Le m m') (h : P.Calm False m) : P.Calm False m' := fun s => Prog.Calm.up (hl s) (h s)
theorem down {m m' : P π α} (hl : P.Le m m') (h : P.Calm S m') : P.Calm True m := fun s => Prog.Calm.down (hl s) (h s)

end P.Calm

/-- Close goals `P.Calm S m` by following the text of `m`. -/
macro "calm" : tactic => `(tactic| repeat' first
  | exact P.Calm.pure _ | exact P.Calm.get | exact P.Calm.modify _
  | exact P.Calm.readAll _ | exact P.Calm.write _ | exact P.Calm.tflush | assumption
  | apply P.Calm.ite | (refine P.Calm.bind ?_ fun _ => ?_) | split)

/-! ## Binary protocol -/

/-- No call that writes panics. -/
structure Proto.CalmWrites (p : Proto π) : Prop where
  messageBegin : ∀ n t i, P.Calm False (p.writeMessageBegin n t i)
  messageEnd : P.Calm False p.writeMessageEnd
  structBegin : ∀ n, P.Calm False (p.writeStructBegin n)
  structEnd : P.Calm False p.writeStructEnd
  fieldBegin : ∀ n t i, P.Calm False (p.writeFieldBegin n t i)
  fieldEnd : P.Calm False p.writeFieldEnd
  fieldStop : P.Calm False p.writeFieldStop
  mapBegin : ∀ k v n, P.Calm False (p.writeMapBegin k v n)
  mapEnd : P.Calm False p.writeMapEnd
  listBegin : ∀ t n, P.Calm False (p.writeListBegin t n)
  listEnd : P.Calm False p.writeListEnd
  setBegin : ∀ t n, P.Calm False (p.writeSetBegin t n)
  setEnd : P.Calm False p.writeSetEnd
  bool : ∀ v, P.Calm False (p.writeBool v)
  byte : ∀ v, P.Calm False (p.writeByte v)
  i16 : ∀ v, P.Calm False (p.writeI16 v)
  i32 : ∀ v, P.Calm False (p.writeI32 v)
  i64 : ∀ v, P.Calm False (p.writeI64 v)
  double : ∀ v, P.Calm False (p.writeDouble v)
  string : ∀ v, P.Calm False (p.writeString v)
  binary : ∀ v, P.Calm False (p.writeBinary v)

/-- No call that reads panics, `ReadBinary` aside. -/
structure Proto.CalmReads (p : Proto π) : Prop where
  messageBegin : P.Calm False p.readMessageBegin
  messageEnd : P.Calm False p.readMessageEnd
  structBegin : P.Calm False p.readStructBegin
  structEnd : P.Calm False p.readStructEnd
  fieldBegin : P.Calm False p.readFieldBegin
  fieldEnd : P.Calm False p.readFieldEnd
  mapBegin : P.Calm False p.readMapBegin
  mapEnd : P.Calm False p.readMapEnd
  listBegin : P.Calm False p.readListBegin
  listEnd : P.Calm False p.readListEnd
  setBegin : P.Calm False p.readSetBegin
  setEnd : P.Calm False p.readSetEnd
  bool : P.Calm False p.readBool
  byte : P.Calm False p.readByte
  i16 : P.Calm False p.readI16
  i32 : P.Calm False p.readI32
  i64 : P.Calm False p.readI64
  double : P.Calm False p.readDouble
  string : P.Calm False p.readString

namespace Bin
open BinaryProtocol

theorem calm_byte (v) : P.Calm False (writeByte v) := by unfold writeByte; calm
theorem calm_i16 (v) : P.Calm False (writeI16 v) := by unfold writeI16; calm
theorem calm_i32 (v) : P.Calm False (writeI32 v) := by unfold writeI32; calm
theorem calm_i64 (v) : P.Calm False (writeI64 v) := by unfold writeI64; calm
theorem calm_raw (v) : P.Calm False (rawWrite v) := by unfold rawWrite; calm
theorem calm_copy (v) : P.Calm False (copyN v) := by unfold copyN; calm
theorem calm_string (v) : P.Calm False (writeString v) := by
  have := calm_i32; have := calm_copy
  unfold writeString
  exact .bind (calm_i32 _) fun _ => .ite (.pure _) (.bind (calm_copy _) fun _ => .pure _)
theorem calm_binary (v) : P.Calm False (writeBinary v) :=
  .bind (calm_i32 _) fun _ => .ite (.pure _) (calm_raw _)
theorem calm_list (t n) : P.Calm False (writeListBegin t n) :=
  .bind (calm_byte _) fun _ => .ite (.pure _) (calm_i32 _)

theorem calm_check (n) : P.Calm False (BinaryProtocol.checkReadLength n) := by unfold BinaryProtocol.checkReadLength; calm
theorem calm_buf (n) : P.Calm False (readAllBuf n) := by
  have := calm_check n
  unfold readAllBuf; calm
theorem calm_rbyte : P.Calm False readByte := .bind (calm_buf _) fun _ => .pure _
theorem calm_ri16 : P.Calm False readI16 := .bind (calm_buf _) fun _ => .pure _
theorem calm_ri32 : P.Calm False readI32 := .bind (calm_buf _) fun _ => .pure _
theorem calm_rbody (n) : P.Calm False (readStringBody n) := by
  have := calm_check n
  unfold readStringBody; calm
theorem calm_rstring : P.Calm False readString :=
  .bind calm_ri32 fun _ => .ite (.pure _) (calm_rbody _)
theorem calm_rlist : P.Calm False readListBegin := by
  have := calm_rbyte; have := calm_ri32
  unfold readListBegin; calm
theorem calm_rmessage : P.Calm False readMessageBegin := by
  have := calm_rbyte; have := calm_ri32; have := calm_rstring; have := calm_rbody
  unfold readMessageBegin; calm
  all_goals exact calm_rbody _

end Bin

theorem binary_calmWrites : binary.CalmWrites where
  messageBegin n t i := by
    show P.Calm False (BinaryProtocol.writeMessageBegin n t i)
    unfold BinaryProtocol.writeMessageBegin
    refine .bind .get fun _ => .ite ?_ ?_
    · exact .bind (Bin.calm_i32 _) fun _ => .ite (.pure _) (.bind (Bin.calm_string _) fun _ => .ite (.pure _) (Bin.calm_i32 _))
    · exact .bind (Bin.calm_string _) fun _ => .ite (.pure _) (.bind (Bin.calm_byte _) fun _ => .ite (.pure _) (Bin.calm_i32 _))
  messageEnd := .pure _
  structBegin _ := .pure _
  structEnd := .pure _
  fieldBegin _ _ _ := .bind (Bin.calm_byte _) fun _ => .ite (.pure _) (Bin.calm_i16 _)
  fieldEnd := .pure _
  fieldStop := Bin.calm_byte _
  mapBegin _ _ _ := .bind (Bin.calm_byte _) fun _ => .ite (.pure _) <| .bind (Bin.calm_byte _) fun _ => .ite (.pure _) (Bin.calm_i32 _)
  mapEnd := .pure _
  listBegin := Bin.calm_list
  listEnd := .pure _
  setBegin := Bin.calm_list
  setEnd := .pure _
  bool _ := .ite (Bin.calm_byte _) (Bin.calm_byte _)
  byte := Bin.calm_byte
  i16 := Bin.calm_i16
  i32 := Bin.calm_i32
  i64 := Bin.calm_i64
  double v := by
    show P.Calm False (BinaryProtocol.writeDouble v)
    first | exact Bin.calm_i64 _ | (unfold BinaryProtocol.writeDouble; calm)
  string := Bin.calm_string
  binary := Bin.calm_binary

theorem binary_calmReads : binary.CalmReads where
  messageBegin := Bin.calm_rmessage
  messageEnd := .pure _
  structBegin := .pure _
  structEnd := .pure _
  fieldBegin := .bind Bin.calm_rbyte fun _ => .ite (.pure _) <| .ite (.bind Bin.calm_ri16 fun _ => .pure _) (.pure _)
  fieldEnd := .pure _
  mapBegin := by
    show P.Calm False BinaryProtocol.readMapBegin
    have := Bin.calm_rbyte; have := Bin.calm_ri32
    unfold BinaryProtocol.readMapBegin; calm
  mapEnd := .pure _
  listBegin := Bin.calm_rlist
  listEnd := .pure _
  setBegin := Bin.calm_rlist
  setEnd := .pure _
  bool := .bind Bin.calm_rbyte fun _ => .pure _
  byte := Bin.calm_rbyte
  i16 := Bin.calm_ri16
  i32 := Bin.calm_ri32
  i64 := .bind (Bin.calm_buf _) fun _ => .pure _
  double := .bind (Bin.calm_buf _) fun _ => .pure _
  string := Bin.calm_rstring

/-! ## Writing -/

section
variable {p : Proto π} (W : p.CalmWrites) {S : Schema}
include W

theorem calm_appType (x : AppExc) : P.Calm False (appWriteType p x) :=
  .bind (W.fieldBegin _ _ _) fun _ => .ite (.pure _) <| .bind (W.i32 _) fun _ => .ite (.pure _) <| .bind W.fieldEnd fun _ =>
    .ite (.pure _) <| .bind W.fieldStop fun _ => .ite (.pure _) W.structEnd

theorem calm_app (x : AppExc) : P.Calm False (appWrite p x) :=
  .bind (W.structBegin _) fun _ => .ite (.bind (W.fieldBegin _ _ _) fun _ => .ite (.pure _) <|
    .bind (W.string _) fun _ => .ite (.pure _) <| .bind W.fieldEnd fun _ => .ite (.pure _) <| calm_appType W x) (calm_appType W x)

theorem calm_sendException (name : Bytes) (x : AppExc) (q : I32) : P.Calm False (sendException p name x q) :=
  .bind (W.messageBegin _ _ _) fun _ => .bind (calm_app W x) fun _ => .bind W.messageEnd fun _ => .bind .tflush fun _ => .pure _

omit W in
theorem calm_wrap {w : Err → Err} {m : P π GoErr} (h : P.Calm False m) : P.Calm False (wrapErr w m) := .bind h fun _ => .pure _

theorem calm_member {wr : Bytes → Bytes → Ty → Dyn → P π GoErr} (sd : StructDef) (attrs : Attrs) (m : Member)
    (h : m.written S (attributeOf attrs m.id.toInt) = true → ∀ fn sn, P.Calm False (wr fn sn m.ty (attributeOf attrs m.id.toInt))) :
    P.Calm False (genWriteMember p S wr sd attrs m) := by
  unfold genWriteMember
  by_cases hw : m.written S (attributeOf attrs m.id.toInt) = true
  · simp only [hw, if_true]
    exact .bind (calm_wrap (W.fieldBegin _ _ _)) fun _ => .ite (.pure _) <| .bind (h hw _ _) fun _ => .ite (.pure _) <| calm_wrap W.fieldEnd
  · simp only [hw]
    exact .pure _

theorem calm_members {wr : Bytes → Bytes → Ty → Dyn → P π GoErr} (sd : StructDef) (attrs : Attrs) : ∀ ms : List Member,
    (∀ m ∈ ms, m.written S (attributeOf attrs m.id.toInt) = true → ∀ fn sn, P.Calm False (wr fn sn m.ty (attributeOf attrs m.id.toInt))) →
    P.Calm False (genWriteMembers p S wr sd attrs ms)
  | [], _ => .pure _
  | m :: ms, h => .bind (calm_member W sd attrs m (h m List.mem_cons_self)) fun _ => .ite (.pure _)
      (calm_members sd attrs ms fun x hx => h x (List.mem_cons_of_mem _ hx))

theorem calm_body (sd : StructDef) {m : P π GoErr} (h : P.Calm False m) : P.Calm False (genWriteBody p sd m) :=
  .bind (calm_wrap (W.structBegin _)) fun _ => .ite (.pure _) <| .bind h fun _ => .ite (.pure _) <|
    .bind (calm_wrap W.fieldStop) fun _ => .ite (.pure _) (calm_wrap W.structEnd)

omit W in
theorem calm_elems {w : Dyn → P π GoErr} : ∀ ds : List Dyn, (∀ d ∈ ds, P.Calm False (w d)) → P.Calm False (genWriteElems w ds)
  | [], _ => .pure _
  | d :: ds, h => .bind (h d List.mem_cons_self) fun _ => .ite (.pure _) (calm_elems ds fun x hx => h x (List.mem_cons_of_mem _ hx))

omit W in
theorem calm_entries {w v : Dyn → P π GoErr} : ∀ ds : List (Dyn × Dyn), (∀ d ∈ ds, P.Calm False (w d.1)) →
    (∀ d ∈ ds, P.Calm False (v d.2)) → P.Calm False (genWriteEntries w v ds)
  | [], _, _ => .pure _
  | d :: ds, h, h' => .bind (h d List.mem_cons_self) fun _ => .ite (.pure _) <| .bind (h' d List.mem_cons_self) fun _ =>
      .ite (.pure _) (calm_entries ds (fun x hx => h x (List.mem_cons_of_mem _ hx)) fun x hx => h' x (List.mem_cons_of_mem _ hx))

/-- Writing the value does not panic. -/
def CalmVal (p : Proto π) (S : Schema) (ty : Ty) (d : Dyn) : Prop := ∃ N, ∀ fn sn, P.Calm False (genWriteVal p S N fn sn ty d)

omit W in
theorem CalmVal.all {α : Type} {f : α → Ty × Dyn} : ∀ {l : List α}, (∀ x ∈ l, CalmVal p S (f x).1 (f x).2) →
    ∃ N, ∀ n, N ≤ n → ∀ x ∈ l, ∀ fn sn, P.Calm False (genWriteVal p S n fn sn (f x).1 (f x).2)
  | [], _ => ⟨0, fun _ _ _ h => (nomatch h)⟩
  | a :: l, h => by
    obtain ⟨N, hN⟩ := CalmVal.all (l := l) fun x hx => h x (List.mem_cons_of_mem _ hx)
    obtain ⟨M, hM⟩ := h a List.mem_cons_self
    refine ⟨max N M, fun n hn x hx fn sn => ?_⟩
    rcases List.mem_cons.mp hx with rfl | hx
    · exact P.Calm.up (le_writeVal (Proto.Le.refl p) S (show M ≤ n by omega) fn sn _ _) (hM fn sn)
    · exact hN n (by omega) x hx fn sn

omit W in
theorem Member.Unset.not_written {m : Member} {d : Dyn} (h : m.Unset S d) : m.written S d = false := by
  rcases h with ⟨_, ⟨hn, hd⟩ | ⟨j, hj, hd⟩⟩
  · rw [hd]; simp [Member.written, hn.can, Dyn.isNil]
  · rw [hd]; simp [Member.written, hj, Ty.canBeNil, Ty.isEnum, Member.isSet]

theorem Typed.calm (hS : ∀ k, ∀ m ∈ (S.structs k).members, m.ty.MapKeyFree) {ty : Ty} {d : Dyn} (h : Typed S ty d) :
    ty.MapKeyFree → CalmVal p S ty d := by
  induction h with
  | bool b => exact fun _ => ⟨1, fun _ _ => calm_wrap (W.bool _)⟩
  | byte b => exact fun _ => ⟨1, fun _ _ => calm_wrap (W.byte _)⟩
  | i16 b => exact fun _ => ⟨1, fun _ _ => calm_wrap (W.i16 _)⟩
  | i32 b => exact fun _ => ⟨1, fun _ _ => calm_wrap (W.i32 _)⟩
  | i64 b => exact fun _ => ⟨1, fun _ _ => calm_wrap (W.i64 _)⟩
  | double b => exact fun _ => ⟨1, fun _ _ => calm_wrap (W.double _)⟩
  | string b h => exact fun _ => ⟨1, fun _ _ => calm_wrap (W.string _)⟩
  | binary b h => exact fun _ => ⟨1, fun _ _ => calm_wrap (W.binary _)⟩
  | enum k v h =>
    refine fun _ => ⟨1, fun fn sn => ?_⟩
    simp only [genWriteVal, if_true]
    exact calm_wrap (W.i32 _)
  | struct k ptr attrs ids ht ih =>
    intro _
    obtain ⟨N, hN⟩ := CalmVal.all (p := p) (S := S) (f := fun m : Member => (m.ty, attributeOf attrs m.id.toInt))
      (l := (S.structs k).members.filter fun m => m.written S (attributeOf attrs m.id.toInt)) (fun m hm => by
        rw [List.mem_filter] at hm
        exact ih m hm.1 (fun hu => by rw [hu.not_written] at hm; cases hm.2) (hS k m hm.1))
    refine ⟨N + 1, fun fn sn => ?_⟩
    simp only [genWriteVal, StructDef.object, if_true]
    refine calm_wrap (calm_body W _ (calm_members W _ _ _ fun m hm hw fn sn => hN N (Nat.le_refl _) m ?_ fn sn))
    exact List.mem_filter.mpr ⟨mem_sorted.mp hm, hw⟩
  | list e ptr vs len _ ih =>
    intro hm
    obtain ⟨N, hN⟩ := CalmVal.all (p := p) (S := S) (f := fun d => (e, d)) (l := vs) fun d hd => ih d hd hm
    refine ⟨N + 1, fun fn sn => ?_⟩
    simp only [genWriteVal]
    exact .bind (calm_wrap (W.listBegin _ _)) fun _ => .ite (.pure _) <|
      .bind (calm_elems _ fun d hd => hN N (Nat.le_refl _) d hd _ _) fun _ => .ite (.pure _) (calm_wrap W.listEnd)
  | set e ptr vs len _ ih =>
    intro hm
    obtain ⟨N, hN⟩ := CalmVal.all (p := p) (S := S) (f := fun d => (e, d)) (l := vs) fun d hd => ih d hd hm
    refine ⟨N + 1, fun fn sn => ?_⟩
    simp only [genWriteVal]
    exact .bind (calm_wrap (W.setBegin _ _)) fun _ => .ite (.pure _) <|
      .bind (calm_elems _ fun d hd => hN N (Nat.le_refl _) d hd _ _) fun _ => .ite (.pure _) (calm_wrap W.setEnd)
  | map k v ptr ks vs es len _ _ ih1 ih2 =>
    intro hm
    obtain ⟨N, hN⟩ := CalmVal.all (p := p) (S := S) (f := fun d : Dyn × Dyn => (k, d.1)) (l := es) fun d hd => ih1 d hd hm.2.1
    obtain ⟨M, hM⟩ := CalmVal.all (p := p) (S := S) (f := fun d : Dyn × Dyn => (v, d.2)) (l := es) fun d hd => ih2 d hd hm.2.2
    refine ⟨max N M + 1, fun fn sn => ?_⟩
    simp only [genWriteVal, iterated_of hm.1]
    exact .bind (calm_wrap (W.mapBegin _ _ _)) fun _ => .ite (.pure _) <|
      .bind (calm_entries _ (fun d hd => hN _ (Nat.le_max_left ..) d hd _ _) fun d hd => hM _ (Nat.le_max_right ..) d hd _ _) fun _ =>
      .ite (.pure _) (calm_wrap W.mapEnd)

/-- Sending a result of the declared types does not panic. -/
theorem calm_reply (hS : ∀ k, ∀ m ∈ (S.structs k).members, m.ty.MapKeyFree) (m : Method) (r : Attrs)
    (h : ∀ x ∈ (S.structs m.result).members, ¬ x.Unset S (attributeOf r x.id.toInt) → Typed S x.ty (attributeOf r x.id.toInt)) :
    ∃ N, ∀ n, N ≤ n → ∀ q, P.Calm False (sendReply p S n m r q) := by
  have key : ∃ N, P.Calm False (genWriteResult p S N (S.structs m.result) r) := by
    unfold genWriteResult
    have hp := pickResult_mem r (S.structs m.result).sorted.reverse
    cases hx : pickResult r (S.structs m.result).sorted.reverse with
    | none => exact ⟨0, calm_body W _ (.pure _)⟩
    | some x =>
      have hm : x ∈ (S.structs m.result).members := mem_sorted.mp (List.mem_reverse.mp (hp x hx))
      by_cases hu : x.Unset S (attributeOf r x.id.toInt)
      · exact ⟨0, calm_body W _ (calm_member W _ _ _ fun hw => by rw [hu.not_written] at hw; cases hw)⟩
      · obtain ⟨N, hN⟩ := Typed.calm W hS (h x hm hu) (hS _ x hm)
        exact ⟨N, calm_body W _ (calm_member W _ _ _ fun _ => hN)⟩
  obtain ⟨N, hN⟩ := key
  exact ⟨N, fun n hn q => .bind (W.messageBegin _ _ _) fun _ =>
    .bind (P.Calm.up (le_writeResult (Proto.Le.refl p) S hn _ _) hN) fun _ => .bind W.messageEnd fun _ => .bind .tflush fun _ => .pure _⟩
where
  pickResult_mem (r : Attrs) : ∀ (ms : List Member) (x : Member), pickResult r ms = some x → x ∈ ms
    | [], _, h => by cases h
    | m :: ms, x, h => by
      rw [pickResult] at h
      split at h
      · split at h
        · exact List.mem_cons_of_mem _ (pickResult_mem r ms x h)
        · cases h; exact List.mem_cons_self
      · split at h
        · rename_i n hn
          split at h
          · cases h; exact List.mem_cons_of_mem _ (pickResult_mem r ms x hn)
          · cases h; exact List.mem_cons_self
        · cases h; exact List.mem_cons_self

end
end Thrift
