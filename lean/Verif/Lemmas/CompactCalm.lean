import Verif.Lemmas.Stops
import Verif.Lemmas.Calm
import Verif.Spec.Hostile
/-!
# When the compact protocol does not panic

Writers push and pop the stack of field ids; readers take lengths off the wire.
-/

namespace Thrift

/-! ## Writers, on every transport -/

/-- The program does not read.  Whatever the transport answers, it does not panic,
and if it returns then with a result that satisfies `Q`. -/
def Prog.Post (Q : α → Prop) : Prog α → Prop
  | .ret a => Q a
  | .panic => False
  | .stuck => True
  | .readAll .. => False
  | .write _ k => ∀ x, (k x).Post Q
  | .flush k => ∀ x, (k x).Post Q

theorem Prog.Post.bind {p : Prog α} {f : α → Prog β} {Q : α → Prop} {R : β → Prop} (h : p.Post Q) (hf : ∀ a, Q a → (f a).Post R) :
    (p.bind f).Post R := by
  induction p with
  | ret a => exact hf a h
  | panic => exact h
  | stuck => trivial
  | readAll n k ih => exact h.elim
  | write bs k ih => exact fun x => ih x (h x)
  | flush k ih => exact fun x => ih x (h x)

theorem Prog.Post.run {p : Prog α} {Q : α → Prop} (h : p.Post Q) {T : Transport σ} (hT : T.Calm) (t : σ) :
    (p.run T t).1 ≠ .panic ∧ ∀ a, (p.run T t).1 = .ok a → Q a := by
  induction p generalizing t with
  | ret a => exact ⟨by simp [Prog.run], fun b hb => by simp [Prog.run] at hb; subst hb; exact h⟩
  | panic => exact h.elim
  | stuck => exact ⟨by simp [Prog.run], fun b hb => by simp [Prog.run] at hb⟩
  | readAll n k ih => exact h.elim
  | write bs k ih =>
    have := hT.write bs t
    rw [Prog.run]
    rcases hr : T.write bs t with ⟨_ | _ | _, s'⟩
    · exact ih _ (h _) _
    · rw [hr] at this; simp at this
    · exact ⟨by simp, fun b hb => by simp at hb⟩
  | flush k ih =>
    have := hT.flush t
    rw [Prog.run]
    rcases hr : T.flush t with ⟨_ | _ | _, s'⟩
    · exact ih _ (h _) _
    · rw [hr] at this; simp at this
    · exact ⟨by simp, fun b hb => by simp at hb⟩

/-- Started in a state that satisfies `A` the program does not panic, and returns in
states that satisfy `B`. -/
def P.Guard (A : π → Prop) (m : P π α) (B : π → Prop) : Prop := ∀ s, A s → (m s).Post fun x => B x.2

namespace P.Guard
variable {A B C : π → Prop}

theorem pure (a : α) (h : ∀ s, A s → B s) : P.Guard A (Pure.pure a : P π α) B := fun s hs => h s hs
theorem ret (a : α) : P.Guard A (Pure.pure a : P π α) A := fun _ hs => hs
theorem get : P.Guard A (P.get : P π π) A := fun _ hs => hs
theorem modify (f : π → π) (h : ∀ s, A s → B (f s)) : P.Guard A (P.modify f) B := fun s hs => h s hs
theorem write (bs : Bytes) : P.Guard A (P.write bs : P π _) A := fun _ hs _ => hs
theorem tflush : P.Guard A (P.tflush : P π _) A := fun _ hs _ => hs
theorem stuck : P.Guard A (P.stuck : P π α) B := fun _ _ => trivial

theorem bind {m : P π α} {f : α → P π β} (h : P.Guard A m B) (hf : ∀ a, P.Guard B (f a) C) : P.Guard A (m >>= f) C :=
  fun s hs => Prog.Post.bind (h s hs) fun a ha => hf a.1 a.2 ha

theorem ite {c : Prop} [Decidable c] {a b : P π α} (ha : P.Guard A a B) (hb : P.Guard A b B) : P.Guard A (if c then a else b) B := by
  split
  · exact ha
  · exact hb

theorem post {m : P π α} (h : P.Guard A m B) (hc : ∀ s, B s → C s) : P.Guard A m C := fun s hs => by
  have := Prog.Post.bind (f := .ret) (R := fun x : α × π => C x.2) (h s hs) fun a ha => hc _ ha
  rwa [show (m s).bind .ret = m s from bindRet _] at this
where
  bindRet {α : Type} : ∀ p : Prog α, p.bind .ret = p
    | .ret _ => rfl
    | .panic => rfl
    | .stuck => rfl
    | .readAll n k => congrArg (Prog.readAll n) (funext fun x => bindRet (k x))
    | .write bs k => congrArg (Prog.write bs) (funext fun x => bindRet (k x))
    | .flush k => congrArg Prog.flush (funext fun x => bindRet (k x))

end P.Guard

/-- The stack has at least `h` entries. -/
def Cmp.High (h : Nat) (s : Cmp) : Prop := h ≤ s.lastField.length

theorem Cmp.High.pop {h : Nat} {s : Cmp} (hs : Cmp.High (h + 1) s) : Cmp.High h s := Nat.le_of_succ_le hs

namespace Cmp
open CompactProtocol
variable {h : Nat}

theorem g_varint32 (n) : P.Guard (High h) (writeVarint32 n) (High h) := by
  unfold writeVarint32
  rw [varintBytes32]
  exact .write _
theorem g_varint64 (n) : P.Guard (High h) (writeVarint64 n) (High h) := by
  unfold writeVarint64
  rw [varintBytes64]
  exact .write _
theorem g_type (t : Ty) (ht : t ≠ .binary) : P.Guard (High h) (getCompactType t.code) (High h) := by
  unfold getCompactType
  cases t <;> first | exact absurd rfl ht | exact .ret _
theorem g_byte (v) : P.Guard (High h) (CompactProtocol.writeByte v) (High h) := .bind (.write _) fun _ => .ret _
theorem g_i16 (v) : P.Guard (High h) (CompactProtocol.writeI16 v) (High h) := .bind (g_varint32 _) fun _ => .ret _
theorem g_i32 (v) : P.Guard (High h) (CompactProtocol.writeI32 v) (High h) := .bind (g_varint32 _) fun _ => .ret _
theorem g_i64 (v) : P.Guard (High h) (CompactProtocol.writeI64 v) (High h) := .bind (g_varint64 _) fun _ => .ret _
theorem g_double (v) : P.Guard (High h) (CompactProtocol.writeDouble v) (High h) := .bind (.write _) fun _ => .ret _
theorem g_binary (v) : P.Guard (High h) (CompactProtocol.writeBinary v) (High h) :=
  .bind (g_varint32 _) fun _ => .ite (.ret _) <| .ite (.bind (.write _) fun _ => .ret _) (.ret _)
theorem g_list (t : Ty) (ht : t ≠ .binary) (n) : P.Guard (High h) (CompactProtocol.writeListBegin t.code n) (High h) :=
  .bind (.ite (.bind (g_type t ht) fun _ => .bind (.write _) fun _ => .ret _) <| .bind (g_type t ht) fun _ => .bind (.write _) fun _ =>
    .ite (.ret _) <| .bind (g_varint32 _) fun _ => .ret _) fun _ => .ret _
theorem g_map (k v : Ty) (hk : k ≠ .binary) (hv : v ≠ .binary) (n) :
    P.Guard (High h) (CompactProtocol.writeMapBegin k.code v.code n) (High h) :=
  .ite (.bind (.write _) fun _ => .ret _) <| .bind (g_varint32 _) fun _ => .ite (.ret _) <|
    .bind (g_type k hk) fun _ => .bind (g_type v hv) fun _ => .bind (.write _) fun _ => .ret _
theorem g_internal (b : Byte) (i : I16) : P.Guard (High h) (do
      let s ← P.get
      if i.toInt > s.lastFieldId ∧ i.toInt - s.lastFieldId ≤ 15 then
        let (_, err) ← writeByteDirect (BitVec.ofInt 8 ((i.toInt - s.lastFieldId) * 16) ||| b)
        if err.isSome then return err
        P.modify fun s => { s with lastFieldId := i.toInt }
        return none
      else
        let (_, err) ← writeByteDirect b
        if err.isSome then return err
        let err ← CompactProtocol.writeI16 i
        if err.isSome then return err
        P.modify fun s => { s with lastFieldId := i.toInt }
        return none : P Cmp GoErr) (High h) :=
  .bind .get fun _ => .ite (.bind (.write _) fun _ => .ite (.ret _) <| .bind (.modify _ fun _ h => h) fun _ => .ret _) <|
    .bind (.write _) fun _ => .ite (.ret _) <| .bind (g_i16 _) fun _ => .ite (.ret _) <| .bind (.modify _ fun _ h => h) fun _ => .ret _
theorem g_field (n) (t : Ty) (ht : t ≠ .binary) (i) : P.Guard (High h) (CompactProtocol.writeFieldBegin n t.code i) (High h) := by
  refine .ite (.bind (.modify _ fun _ h => h) fun _ => .ret _) (.bind ?_ fun _ => .ret _)
  unfold writeFieldBeginInternal
  exact .bind (g_type t ht) fun b => g_internal b i
theorem g_bool (v) : P.Guard (High h) (CompactProtocol.writeBool v) (High h) := by
  refine .bind .get fun s => ?_
  split
  · refine .bind ?_ fun _ => .bind (.modify _ fun _ h => h) fun _ => .ret _
    unfold writeFieldBeginInternal
    exact g_internal _ _
  · exact .bind (.write _) fun _ => .ret _
theorem g_structBegin (n) : P.Guard (High h) (CompactProtocol.writeStructBegin n) (High (h + 1)) :=
  .bind (.modify _ fun _ h => Nat.succ_le_succ h) fun _ => .ret _
theorem g_structEnd : P.Guard (High (h + 1)) CompactProtocol.writeStructEnd (High h) := by
  intro s hs
  obtain ⟨_ | ⟨top, rest⟩, a, b, c, d⟩ := s
  · exact absurd hs (Nat.not_succ_le_zero _)
  · exact Nat.le_of_succ_le_succ hs
theorem g_message (n t q) : P.Guard (High h) (CompactProtocol.writeMessageBegin n t q) (High h) :=
  .bind (.write _) fun _ => .ite (.ret _) <| .bind (.write _) fun _ => .ite (.ret _) <|
    .bind (g_varint32 _) fun _ => .ite (.ret _) (g_binary _)

end Cmp

section
variable {f h : Nat} {S : Schema}
open Cmp

theorem g_appType (x : AppExc) : P.Guard (High (h + 1)) (appWriteType (compact f) x) (High h) :=
  .bind (g_field (ascii "type") .i32 nofun _) fun _ => .ite (.pure _ fun _ h => h.pop) <| .bind (g_i32 _) fun _ => .ite (.pure _ fun _ h => h.pop) <|
    .bind (.ret _) fun _ => .ite (.pure _ fun _ h => h.pop) <|
    .bind (.bind (.write _) fun _ => .ret _) fun _ => .ite (.pure _ fun _ h => h.pop) g_structEnd

theorem g_app (x : AppExc) : P.Guard (High h) (appWrite (compact f) x) (High h) :=
  .bind (g_structBegin (ascii "TApplicationException")) fun _ => .ite (.bind (g_field (ascii "message") .string nofun _) fun _ => .ite (.pure _ fun _ h => h.pop) <|
    .bind (g_binary _) fun _ => .ite (.pure _ fun _ h => h.pop) <| .bind (.ret _) fun _ => .ite (.pure _ fun _ h => h.pop) <|
    g_appType x) (g_appType x)

theorem g_sendException (name : Bytes) (x : AppExc) (q : I32) : P.Guard (High h) (sendException (compact f) name x q) (High h) :=
  .bind (g_message _ _ _) fun _ => .bind (g_app x) fun _ => .bind (.ret _) fun _ => .bind .tflush fun _ => .ret _

theorem g_wrap {A B : π → Prop} {w : Err → Err} {m : P π GoErr} (h : P.Guard A m B) : P.Guard A (wrapErr w m) B := .bind h fun _ => .ret _

theorem g_member {wr : Bytes → Bytes → Ty → Dyn → P Cmp GoErr} (sd : StructDef) (attrs : Attrs) (m : Member) (hb : m.ty ≠ .binary)
    (hw : m.written S (attributeOf attrs m.id.toInt) = true → ∀ fn sn, P.Guard (High h) (wr fn sn m.ty (attributeOf attrs m.id.toInt)) (High h)) :
    P.Guard (High h) (genWriteMember (compact f) S wr sd attrs m) (High h) := by
  unfold genWriteMember
  by_cases hs : m.written S (attributeOf attrs m.id.toInt) = true
  · simp only [hs, if_true]
    exact .bind (g_wrap (g_field _ m.ty hb _)) fun _ => .ite (.ret _) <| .bind (hw hs _ _) fun _ => .ite (.ret _) <| g_wrap (.ret _)
  · simp only [hs]
    exact .ret _

theorem g_members {wr : Bytes → Bytes → Ty → Dyn → P Cmp GoErr} (sd : StructDef) (attrs : Attrs) : ∀ ms : List Member,
    (∀ m ∈ ms, m.ty ≠ .binary) → (∀ m ∈ ms, m.written S (attributeOf attrs m.id.toInt) = true → ∀ fn sn,
      P.Guard (High h) (wr fn sn m.ty (attributeOf attrs m.id.toInt)) (High h)) →
    P.Guard (High h) (genWriteMembers (compact f) S wr sd attrs ms) (High h)
  | [], _, _ => .ret _
  | m :: ms, hb, hw => .bind (g_member sd attrs m (hb m List.mem_cons_self) (hw m List.mem_cons_self)) fun _ => .ite (.ret _)
      (g_members sd attrs ms (fun x hx => hb x (List.mem_cons_of_mem _ hx)) fun x hx => hw x (List.mem_cons_of_mem _ hx))

theorem g_body (sd : StructDef) {m : P Cmp GoErr} (hm : P.Guard (High (h + 1)) m (High (h + 1))) :
    P.Guard (High h) (genWriteBody (compact f) sd m) (High h) :=
  .bind (g_wrap (g_structBegin sd.name)) fun _ => .ite (.pure _ fun _ h => h.pop) <| .bind hm fun _ => .ite (.pure _ fun _ h => h.pop) <|
    .bind (g_wrap (.bind (.write _) fun _ => .ret _)) fun _ => .ite (.pure _ fun _ h => h.pop) (g_wrap g_structEnd)

theorem g_elems {A : π → Prop} {w : Dyn → P π GoErr} : ∀ ds : List Dyn, (∀ d ∈ ds, P.Guard A (w d) A) → P.Guard A (genWriteElems w ds) A
  | [], _ => .ret _
  | d :: ds, h => .bind (h d List.mem_cons_self) fun _ => .ite (.ret _) (g_elems ds fun x hx => h x (List.mem_cons_of_mem _ hx))

theorem g_entries {A : π → Prop} {w v : Dyn → P π GoErr} : ∀ ds : List (Dyn × Dyn), (∀ d ∈ ds, P.Guard A (w d.1) A) →
    (∀ d ∈ ds, P.Guard A (v d.2) A) → P.Guard A (genWriteEntries w v ds) A
  | [], _, _ => .ret _
  | d :: ds, h, h' => .bind (h d List.mem_cons_self) fun _ => .ite (.ret _) <| .bind (h' d List.mem_cons_self) fun _ =>
      .ite (.ret _) (g_entries ds (fun x hx => h x (List.mem_cons_of_mem _ hx)) fun x hx => h' x (List.mem_cons_of_mem _ hx))

theorem Ty.Bare.ne {R : Nat → Prop} {t : Ty} (h : t.Bare R) : t ≠ .binary := by rintro rfl; exact h

theorem Typed.guard (hK : ∀ k, ∀ m ∈ (S.structs k).members, m.ty.MapKeyFree) {R : Nat → Prop}
    (hR : ∀ j, R j → ∀ m ∈ (S.structs j).members, m.ty.Bare R) {ty : Ty} {d : Dyn} (hd : Typed S ty d) :
    ty.MapKeyFree → ty.Bare R → ∀ n h fn sn, P.Guard (High h) (genWriteVal (compact f) S n fn sn ty d) (High h) := by
  induction hd with
  | bool b => intro _ _ n h fn sn; cases n; exact .stuck; exact g_wrap (g_bool _)
  | byte b => intro _ _ n h fn sn; cases n; exact .stuck; exact g_wrap (g_byte _)
  | i16 b => intro _ _ n h fn sn; cases n; exact .stuck; exact g_wrap (g_i16 _)
  | i32 b => intro _ _ n h fn sn; cases n; exact .stuck; exact g_wrap (g_i32 _)
  | i64 b => intro _ _ n h fn sn; cases n; exact .stuck; exact g_wrap (g_i64 _)
  | double b => intro _ _ n h fn sn; cases n; exact .stuck; exact g_wrap (g_double _)
  | string b _ => intro _ _ n h fn sn; cases n; exact .stuck; exact g_wrap (g_binary _)
  | binary b _ => exact fun _ h => h.elim
  | enum k v _ =>
    intro _ _ n h fn sn
    cases n
    · exact .stuck
    · simp only [genWriteVal, if_true]
      exact g_wrap (g_i32 _)
  | struct k ptr attrs ids ht ih =>
    intro _ hk n h fn sn
    cases n with
    | zero => exact .stuck
    | succ n =>
    simp only [genWriteVal, StructDef.object, if_true]
    refine g_wrap (g_body _ (g_members _ _ _ (fun m hm => (hR k hk m (mem_sorted.mp hm)).ne) fun m hm hw fn sn => ?_))
    have hm := mem_sorted.mp hm
    exact ih m hm (fun hu => by rw [hu.not_written] at hw; cases hw) (hK k m hm) (hR k hk m hm) n _ fn sn
  | list e ptr vs len _ ih =>
    intro hm hp n h fn sn
    cases n with
    | zero => exact .stuck
    | succ n =>
    simp only [genWriteVal]
    exact .bind (g_wrap (g_list e (Ty.Bare.ne hp) _)) fun _ => .ite (.ret _) <|
      .bind (g_elems _ fun d hd => ih d hd hm hp n _ _ _) fun _ => .ite (.ret _) (g_wrap (.ret _))
  | set e ptr vs len _ ih =>
    intro hm hp n h fn sn
    cases n with
    | zero => exact .stuck
    | succ n =>
    simp only [genWriteVal]
    exact .bind (g_wrap (g_list e (Ty.Bare.ne hp) _)) fun _ => .ite (.ret _) <|
      .bind (g_elems _ fun d hd => ih d hd hm hp n _ _ _) fun _ => .ite (.ret _) (g_wrap (.ret _))
  | map k v ptr ks vs es len _ _ ih1 ih2 =>
    intro hm hp n h fn sn
    cases n with
    | zero => exact .stuck
    | succ n =>
    simp only [genWriteVal, iterated_of hm.1]
    exact .bind (g_wrap (g_map k v hp.1.ne hp.2.ne _)) fun _ => .ite (.ret _) <|
      .bind (g_entries _ (fun d hd => ih1 d hd hm.2.1 hp.1 n _ _ _) fun d hd => ih2 d hd hm.2.2 hp.2 n _ _ _) fun _ =>
      .ite (.ret _) (g_wrap (.ret _))

/-- Writing an object of the declared types. -/
theorem g_write (hK : ∀ k, ∀ m ∈ (S.structs k).members, m.ty.MapKeyFree) {k : Nat} (hp : S.Bare k) {attrs : Attrs}
    (ht : FieldsTyped S (S.structs k) attrs) (n : Nat) : P.Guard (High h) (genWrite (compact f) S n (S.structs k) attrs) (High h) := by
  obtain ⟨R, hk, hR⟩ := hp
  refine g_body _ (g_members _ _ _ (fun m hm => (hR k hk m (mem_sorted.mp hm)).ne) fun m hm hw fn sn => ?_)
  have hm := mem_sorted.mp hm
  exact Typed.guard hK hR (ht m hm fun hu => by rw [hu.not_written] at hw; cases hw) (hK k m hm) (hR k hk m hm) n _ fn sn

/-- Sending a result of the declared types. -/
theorem g_reply (hK : ∀ k, ∀ m ∈ (S.structs k).members, m.ty.MapKeyFree) (m : Method) (hp : S.Bare m.result) {r : Attrs}
    (ht : FieldsTyped S (S.structs m.result) r) (n : Nat) (q : I32) :
    P.Guard (High h) (sendReply (compact f) S n m r q) (High h) := by
  obtain ⟨R, hk, hR⟩ := hp
  refine .bind (g_message _ _ _) fun _ => .bind ?_ fun _ => .bind (.ret _) fun _ => .bind .tflush fun _ => .ret _
  unfold genWriteResult
  refine g_body _ ?_
  have hin := calm_reply.pickResult_mem r (S.structs m.result).sorted.reverse
  cases hx : pickResult r (S.structs m.result).sorted.reverse with
  | none => exact .ret _
  | some x =>
    have hm : x ∈ (S.structs m.result).members := mem_sorted.mp (List.mem_reverse.mp (hin x hx))
    exact g_member _ _ _ (hR _ hk x hm).ne fun hw fn sn =>
      Typed.guard hK hR (ht x hm fun hu => by rw [hu.not_written] at hw; cases hw) (hK _ x hm) (hR _ hk x hm) n _ fn sn

end
end Thrift
