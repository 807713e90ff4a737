import Verif.Lemmas.Digest
/-!
# Processors and clients come to an end
-/

namespace Thrift

/-- Whatever the transport answers, the program does not run out of fuel. -/
def Prog.Halts : Prog α → Prop
  | .ret _ => True
  | .panic => True
  | .stuck => False
  | .readAll _ k => ∀ x, (k x).Halts
  | .write _ k => ∀ x, (k x).Halts
  | .flush k => ∀ x, (k x).Halts

namespace Prog.Halts

theorem bind {p : Prog α} {f : α → Prog β} (h : p.Halts) (hf : ∀ a, (f a).Halts) : (p.bind f).Halts := by
  induction p with
  | ret a => exact hf a
  | panic => trivial
  | stuck => exact h.elim
  | readAll n k ih => exact fun x => ih x (h x)
  | write bs k ih => exact fun x => ih x (h x)
  | flush k ih => exact fun x => ih x (h x)

theorem of_calm {p : Prog α} (h : p.Calm False) : p.Halts := by
  induction p with
  | ret a => trivial
  | panic => trivial
  | stuck => exact h.elim
  | readAll n k ih => exact fun x => ih x (h x)
  | write bs k ih => exact fun x => ih x (h x)
  | flush k ih => exact fun x => ih x (h x)

theorem duplex {p : Prog α} (h : p.Halts) (t : Bytes × Bytes) : (p.run Thrift.duplex t).1 ≠ .stuck := by
  induction p generalizing t with
  | ret a => exact (nomatch ·)
  | panic => exact (nomatch ·)
  | stuck => exact h.elim
  | readAll n k ih =>
    obtain ⟨inp, out⟩ := t
    rw [Prog.run, duplex_readAll]
    by_cases hn : n ≤ inp.length
    · rw [if_pos hn]; exact ih _ (h _) _
    · rw [if_neg hn]; exact ih _ (h _) _
  | write bs k ih => exact ih _ (h _) _
  | flush k ih => exact ih _ (h _) _

end Prog.Halts

def P.Halts (m : P π α) : Prop := ∀ s, (m s).Halts

namespace P.Halts

theorem pure (a : α) : P.Halts (Pure.pure a : P π α) := fun _ => trivial
theorem panic : P.Halts (P.panic : P π α) := fun _ => trivial
theorem get : P.Halts (P.get : P π π) := fun _ => trivial
theorem modify (f : π → π) : P.Halts (P.modify f) := fun _ => trivial
theorem write (bs : Bytes) : P.Halts (P.write bs : P π _) := fun _ _ => trivial
theorem tflush : P.Halts (P.tflush : P π _) := fun _ _ => trivial
theorem of_calm {m : P π α} (h : P.Calm False m) : P.Halts m := fun s => .of_calm (h s)

theorem bind {m : P π α} {f : α → P π β} (h : P.Halts m) (hf : ∀ a, P.Halts (f a)) : P.Halts (m >>= f) :=
  fun s => Prog.Halts.bind (h s) fun a => hf a.1 a.2

theorem ite {c : Prop} [Decidable c] {a b : P π α} (ha : P.Halts a) (hb : P.Halts b) : P.Halts (if c then a else b) := by
  split
  · exact ha
  · exact hb

theorem on {get : τ → π} {set : π → τ → τ} {m : P π α} (h : P.Halts m) : P.Halts (P.on get set m) :=
  fun s => Prog.Halts.bind (h (get s)) fun _ => trivial

theorem out {m : P π α} (h : P.Halts m) : P.Halts (Client.out m) := by
  intro c
  unfold Client.out
  split
  · trivial
  · exact Prog.Halts.bind (h _) fun _ => trivial

end P.Halts

/-- Close goals `P.Halts m` by following the text of `m`. -/
macro "halts" : tactic => `(tactic| repeat' first
  | exact P.Halts.pure _ | exact P.Halts.panic | exact P.Halts.get | exact P.Halts.modify _
  | exact P.Halts.write _ | exact P.Halts.tflush | assumption | solve_by_elim
  | apply P.Halts.ite | (refine P.Halts.bind ?_ fun _ => ?_) | split)

/-- Every call that writes comes to an end. -/
structure Proto.HaltsWrites (p : Proto π) : Prop where
  messageBegin : ∀ n t i, P.Halts (p.writeMessageBegin n t i)
  messageEnd : P.Halts p.writeMessageEnd
  structBegin : ∀ n, P.Halts (p.writeStructBegin n)
  structEnd : P.Halts p.writeStructEnd
  fieldBegin : ∀ n t i, P.Halts (p.writeFieldBegin n t i)
  fieldEnd : P.Halts p.writeFieldEnd
  fieldStop : P.Halts p.writeFieldStop
  mapBegin : ∀ k v n, P.Halts (p.writeMapBegin k v n)
  mapEnd : P.Halts p.writeMapEnd
  listBegin : ∀ t n, P.Halts (p.writeListBegin t n)
  listEnd : P.Halts p.writeListEnd
  setBegin : ∀ t n, P.Halts (p.writeSetBegin t n)
  setEnd : P.Halts p.writeSetEnd
  bool : ∀ v, P.Halts (p.writeBool v)
  byte : ∀ v, P.Halts (p.writeByte v)
  i16 : ∀ v, P.Halts (p.writeI16 v)
  i32 : ∀ v, P.Halts (p.writeI32 v)
  i64 : ∀ v, P.Halts (p.writeI64 v)
  double : ∀ v, P.Halts (p.writeDouble v)
  string : ∀ v, P.Halts (p.writeString v)
  binary : ∀ v, P.Halts (p.writeBinary v)

theorem Proto.CalmWrites.halts {p : Proto π} (W : p.CalmWrites) : p.HaltsWrites where
  messageBegin _ _ _ := .of_calm (W.messageBegin _ _ _)
  messageEnd := .of_calm W.messageEnd
  structBegin _ := .of_calm (W.structBegin _)
  structEnd := .of_calm W.structEnd
  fieldBegin _ _ _ := .of_calm (W.fieldBegin _ _ _)
  fieldEnd := .of_calm W.fieldEnd
  fieldStop := .of_calm W.fieldStop
  mapBegin _ _ _ := .of_calm (W.mapBegin _ _ _)
  mapEnd := .of_calm W.mapEnd
  listBegin _ _ := .of_calm (W.listBegin _ _)
  listEnd := .of_calm W.listEnd
  setBegin _ _ := .of_calm (W.setBegin _ _)
  setEnd := .of_calm W.setEnd
  bool _ := .of_calm (W.bool _)
  byte _ := .of_calm (W.byte _)
  i16 _ := .of_calm (W.i16 _)
  i32 _ := .of_calm (W.i32 _)
  i64 _ := .of_calm (W.i64 _)
  double _ := .of_calm (W.double _)
  string _ := .of_calm (W.string _)
  binary _ := .of_calm (W.binary _)

namespace Cmp
open CompactProtocol

theorem halts_varint32 (n) : P.Halts (writeVarint32 n) := by
  unfold writeVarint32
  split
  · exact .write _
  · exact .panic
theorem halts_varint64 (n) : P.Halts (writeVarint64 n) := by
  unfold writeVarint64
  split
  · exact .write _
  · exact .panic
theorem halts_type (t) : P.Halts (getCompactType t) := by
  unfold getCompactType
  split
  · exact .pure _
  · exact .panic
theorem halts_byte (v) : P.Halts (CompactProtocol.writeByte v) := .bind (.write _) fun _ => .pure _
theorem halts_i16 (v) : P.Halts (CompactProtocol.writeI16 v) := .bind (halts_varint32 _) fun _ => .pure _
theorem halts_binary (v) : P.Halts (CompactProtocol.writeBinary v) :=
  .bind (halts_varint32 _) fun _ => .ite (.pure _) <| .ite (.bind (.write _) fun _ => .pure _) (.pure _)
theorem halts_list (t n) : P.Halts (CompactProtocol.writeListBegin t n) :=
  .bind (.ite (.bind (halts_type _) fun _ => .bind (.write _) fun _ => .pure _) <| .bind (halts_type _) fun _ => .bind (.write _) fun _ =>
    .ite (.pure _) <| .bind (halts_varint32 _) fun _ => .pure _) fun _ => .pure _
theorem halts_field (t i o) : P.Halts (writeFieldBeginInternal t i o) := by
  have := halts_i16 i
  have hk : ∀ b : Byte, P.Halts (do
      let s ← P.get
      if i.toInt > s.lastFieldId ∧ i.toInt - s.lastFieldId ≤ 15 then
        let (_, err) ← writeByteDirect (BitVec.ofInt 8 ((i.toInt - s.lastFieldId) * 16) ||| b)
        if err.isSome then return err
        P.modify fun s => { s with lastFieldId := i.toInt }
        return none
      else
        let (_, err) ← writeByteDirect b
        if err.isSome then return err
        let err ← CompactProtocol.writeI16 i
        if err.isSome then return err
        P.modify fun s => { s with lastFieldId := i.toInt }
        return none : P Cmp GoErr) := fun b =>
    .bind .get fun _ => .ite (.bind (.write _) fun _ => .ite (.pure _) <| .bind (.modify _) fun _ => .pure _) <|
      .bind (.write _) fun _ => .ite (.pure _) <| .bind this fun _ => .ite (.pure _) <| .bind (.modify _) fun _ => .pure _
  unfold writeFieldBeginInternal
  cases o with
  | none => exact .bind (halts_type _) hk
  | some b => exact hk b

end Cmp

theorem compact_haltsWrites (f : Nat) : (compact f).HaltsWrites where
  messageBegin _ _ _ := .bind (.write _) fun _ => .ite (.pure _) <| .bind (.write _) fun _ => .ite (.pure _) <|
    .bind (Cmp.halts_varint32 _) fun _ => .ite (.pure _) (Cmp.halts_binary _)
  messageEnd := .pure _
  structBegin _ := .bind (.modify _) fun _ => .pure _
  structEnd := by
    show P.Halts CompactProtocol.writeStructEnd
    refine .bind .get fun s => ?_
    split
    · exact .panic
    · exact .bind (.modify _) fun _ => .pure _
  fieldBegin _ _ _ := .ite (.bind (.modify _) fun _ => .pure _) (.bind (Cmp.halts_field _ _ _) fun _ => .pure _)
  fieldEnd := .pure _
  fieldStop := .bind (.write _) fun _ => .pure _
  mapBegin _ _ _ := .ite (.bind (.write _) fun _ => .pure _) <| .bind (Cmp.halts_varint32 _) fun _ => .ite (.pure _) <|
    .bind (Cmp.halts_type _) fun _ => .bind (Cmp.halts_type _) fun _ => .bind (.write _) fun _ => .pure _
  mapEnd := .pure _
  listBegin := Cmp.halts_list
  listEnd := .pure _
  setBegin := Cmp.halts_list
  setEnd := .pure _
  bool _ := by
    refine .bind .get fun s => ?_
    split
    · exact .bind (Cmp.halts_field _ _ _) fun _ => .bind (.modify _) fun _ => .pure _
    · exact .bind (.write _) fun _ => .pure _
  byte := Cmp.halts_byte
  i16 := Cmp.halts_i16
  i32 _ := .bind (Cmp.halts_varint32 _) fun _ => .pure _
  i64 _ := .bind (Cmp.halts_varint64 _) fun _ => .pure _
  double _ := .bind (.write _) fun _ => .pure _
  string := Cmp.halts_binary
  binary := Cmp.halts_binary

/-! ## Writing -/

theorem attribute_size (attrs : Attrs) (i : Int) : sizeOf (attributeOf attrs i) ≤ sizeOf attrs := by
  induction attrs with
  | nil => simp [attributeOf]
  | cons x as ih =>
    obtain ⟨k, d⟩ := x
    rw [attributeOf_cons]
    split
    · simp; omega
    · simp; omega

section
variable {p : Proto π} (W : p.HaltsWrites) {S : Schema}
include W

theorem halts_appType (x : AppExc) : P.Halts (appWriteType p x) :=
  .bind (W.fieldBegin _ _ _) fun _ => .ite (.pure _) <| .bind (W.i32 _) fun _ => .ite (.pure _) <| .bind W.fieldEnd fun _ =>
    .ite (.pure _) <| .bind W.fieldStop fun _ => .ite (.pure _) W.structEnd

theorem halts_app (x : AppExc) : P.Halts (appWrite p x) :=
  .bind (W.structBegin _) fun _ => .ite (.bind (W.fieldBegin _ _ _) fun _ => .ite (.pure _) <|
    .bind (W.string _) fun _ => .ite (.pure _) <| .bind W.fieldEnd fun _ => .ite (.pure _) <| halts_appType W x) (halts_appType W x)

theorem halts_sendException (name : Bytes) (x : AppExc) (q : I32) : P.Halts (sendException p name x q) :=
  .bind (W.messageBegin _ _ _) fun _ => .bind (halts_app W x) fun _ => .bind W.messageEnd fun _ => .bind .tflush fun _ => .pure _

omit W in
theorem halts_wrap {w : Err → Err} {m : P π GoErr} (h : P.Halts m) : P.Halts (wrapErr w m) := .bind h fun _ => .pure _

theorem halts_member {wr : Bytes → Bytes → Ty → Dyn → P π GoErr} (sd : StructDef) (attrs : Attrs) (m : Member)
    (h : ∀ fn sn, P.Halts (wr fn sn m.ty (attributeOf attrs m.id.toInt))) : P.Halts (genWriteMember p S wr sd attrs m) := by
  unfold genWriteMember
  exact .ite (.bind (halts_wrap (W.fieldBegin _ _ _)) fun _ => .ite (.pure _) <| .bind (h _ _) fun _ => .ite (.pure _) <| halts_wrap W.fieldEnd)
    (.pure _)

theorem halts_members {wr : Bytes → Bytes → Ty → Dyn → P π GoErr} (sd : StructDef) (attrs : Attrs)
    (h : ∀ fn sn ty d, sizeOf d ≤ sizeOf attrs → P.Halts (wr fn sn ty d)) : ∀ ms : List Member, P.Halts (genWriteMembers p S wr sd attrs ms)
  | [] => .pure _
  | m :: ms => .bind (halts_member W sd attrs m fun _ _ => h _ _ _ _ (attribute_size _ _)) fun _ => .ite (.pure _)
      (halts_members sd attrs h ms)

theorem halts_body (sd : StructDef) {m : P π GoErr} (h : P.Halts m) : P.Halts (genWriteBody p sd m) :=
  .bind (halts_wrap (W.structBegin _)) fun _ => .ite (.pure _) <| .bind h fun _ => .ite (.pure _) <|
    .bind (halts_wrap W.fieldStop) fun _ => .ite (.pure _) (halts_wrap W.structEnd)

omit W in
theorem halts_elems {w : Dyn → P π GoErr} : ∀ ds : List Dyn, (∀ d ∈ ds, P.Halts (w d)) → P.Halts (genWriteElems w ds)
  | [], _ => .pure _
  | d :: ds, h => .bind (h d List.mem_cons_self) fun _ => .ite (.pure _) (halts_elems ds fun x hx => h x (List.mem_cons_of_mem _ hx))

omit W in
theorem halts_entries {w v : Dyn → P π GoErr} : ∀ ds : List (Dyn × Dyn), (∀ d ∈ ds, P.Halts (w d.1)) →
    (∀ d ∈ ds, P.Halts (v d.2)) → P.Halts (genWriteEntries w v ds)
  | [], _, _ => .pure _
  | d :: ds, h, h' => .bind (h d List.mem_cons_self) fun _ => .ite (.pure _) <| .bind (h' d List.mem_cons_self) fun _ =>
      .ite (.pure _) (halts_entries ds (fun x hx => h x (List.mem_cons_of_mem _ hx)) fun x hx => h' x (List.mem_cons_of_mem _ hx))

omit W in
theorem iterated_subset {kt : TType} {entries es : List (Dyn × Dyn)} (h : iterated kt entries = some es) : ∀ e ∈ es, e ∈ entries := by
  unfold iterated at h
  split at h
  · cases h; exact fun _ h => (nomatch h)
  · split at h
    · cases h; exact fun _ h => h
    · cases h

/-- A value of any declared type and any Go type is written or refused. -/
theorem halts_writeVal : ∀ (n : Nat) (fn sn : Bytes) (ty : Ty) (d : Dyn), sizeOf d < n → P.Halts (genWriteVal p S n fn sn ty d)
  | 0, _, _, _, _, h => by omega
  | n + 1, fn, sn, ty, d, hn => by
    unfold genWriteVal
    split
    · exact halts_wrap (W.bool _)
    · exact halts_wrap (W.byte _)
    · exact halts_wrap (W.i16 _)
    · exact halts_wrap (W.i32 _)
    · exact halts_wrap (W.i64 _)
    · exact halts_wrap (W.double _)
    · exact halts_wrap (W.string _)
    · exact halts_wrap (W.binary _)
    · exact .ite (halts_wrap (W.i32 _)) .panic
    · refine .ite (halts_wrap (halts_body W _ (halts_members W _ _ (fun fn sn ty d hd => halts_writeVal n fn sn ty d ?_) _))) .panic
      simp at hn
      omega
    · refine .bind (halts_wrap (W.listBegin _ _)) fun _ => .ite (.pure _) <|
        .bind (halts_elems _ fun d hd => halts_writeVal n _ _ _ _ ?_) fun _ => .ite (.pure _) (halts_wrap W.listEnd)
      have := List.sizeOf_lt_of_mem hd
      simp at hn
      omega
    · refine .bind (halts_wrap (W.setBegin _ _)) fun _ => .ite (.pure _) <|
        .bind (halts_elems _ fun d hd => halts_writeVal n _ _ _ _ ?_) fun _ => .ite (.pure _) (halts_wrap W.setEnd)
      have := List.sizeOf_lt_of_mem hd
      simp at hn
      omega
    · refine .bind (halts_wrap (W.mapBegin _ _ _)) fun _ => .ite (.pure _) ?_
      split
      · exact .panic
      · rename_i es he
        refine .bind (halts_entries _ (fun d hd => halts_writeVal n _ _ _ _ ?_) fun d hd => halts_writeVal n _ _ _ _ ?_) fun _ =>
          .ite (.pure _) (halts_wrap W.mapEnd)
        all_goals
          have := List.sizeOf_lt_of_mem (iterated_subset he d hd)
          obtain ⟨a, b⟩ := d
          simp at hn this ⊢
          omega
    · exact .panic

theorem halts_write (sd : StructDef) (attrs : Attrs) (n : Nat) (hn : sizeOf attrs < n) : P.Halts (genWrite p S n sd attrs) :=
  halts_body W _ (halts_members W _ _ (fun _ _ _ _ hd => halts_writeVal W n _ _ _ _ (by omega)) _)

theorem halts_result (sd : StructDef) (attrs : Attrs) (n : Nat) (hn : sizeOf attrs < n) : P.Halts (genWriteResult p S n sd attrs) := by
  refine halts_body W _ ?_
  split
  · exact halts_member W _ _ _ fun _ _ => halts_writeVal W n _ _ _ _ (Nat.lt_of_le_of_lt (attribute_size _ _) hn)
  · exact .pure _

theorem halts_reply (m : Method) (r : Attrs) (n : Nat) (hn : sizeOf r < n) (q : I32) : P.Halts (sendReply p S n m r q) :=
  .bind (W.messageBegin _ _ _) fun _ => .bind (halts_result W _ _ n hn) fun _ => .bind W.messageEnd fun _ => .bind .tflush fun _ => .pure _

theorem halts_send (m : Method) (args : Attrs) (n : Nat) (hn : sizeOf args < n) : P.Halts (Client.send p S n m args) := by
  refine .bind (fun c => ?_) fun _ => .bind (.modify _) fun _ => .bind .get fun _ => .bind (.out (W.messageBegin _ _ _)) fun _ =>
    .bind (.out (halts_write W _ _ n hn)) fun _ => .bind (.out W.messageEnd) fun _ => .bind .tflush fun _ => .pure _
  unfold Client.renewOutput
  split
  · trivial
  · split <;> trivial

end

/-! ## Reading and answering -/

/-- The program returns or panics. -/
def Returns (m : P π α) (s : π) (t : Bytes × Bytes) : Prop := (m.run duplex s t).1 ≠ .stuck

theorem Returns.bind {m : P π α} {f : α → P π β} {s : π} {t : Bytes × Bytes} (h : Returns m s t)
    (hf : ∀ a s' t', m.run duplex s t = (.ok (a, s'), t') → Returns (f a) s' t') : Returns (m >>= f) s t := by
  unfold Returns at h ⊢
  rw [P.run_bind]
  rcases hm : m.run duplex s t with ⟨⟨a, s'⟩ | _ | _, t'⟩
  · rw [andThen_ok]; exact hf a s' t' hm
  · rw [andThen_panic]; exact (nomatch ·)
  · rw [hm] at h; exact absurd rfl h

theorem P.Halts.stops {m : P π α} (h : P.Halts m) (s : π) (t : Bytes × Bytes) : Returns m s t := (h s).duplex t

theorem Wp.stops {m : P π α} {s : π} {inp out : Bytes} {Q : α → π → Bytes → Prop} {X : Bytes → Prop} (h : Wp m s inp Q X) :
    Returns m s (inp, out) := by
  unfold Returns
  rcases h out with ⟨_, _, _, h, _⟩ | ⟨_, h, _⟩ <;> rw [h] <;> exact (nomatch ·)

theorem Returns.up {m m' : P π α} (h : P.Le m m') {s : π} {t : Bytes × Bytes} (hm : Returns m s t) : Returns m' s t := by
  unfold Returns
  rw [h.run duplex s t hm]
  exact hm

/-- A reader on the input side of a server. -/
theorem Returns.input {ι ω η α β : Type} {m : P ι α} {f : α → P (Server ι ω η) β} {i : ι} {o : ω} {h : η} {inp out : Bytes}
    {Q : α → ι → Bytes → Prop} {X : Bytes → Prop} (hm : Wp m i inp Q X)
    (hf : ∀ a i' inp', Q a i' inp' → Returns (f a) ⟨i', o, h⟩ (inp', out)) :
    Returns (P.input m >>= f) ⟨i, o, h⟩ (inp, out) := by
  unfold Returns
  rw [P.run_bind, P.run_input]
  rcases hm out with ⟨a, i', inp', h1, h2⟩ | ⟨_, h1, _⟩
  · show (andThen (putBack _ (m.run duplex i (inp, out))) _).1 ≠ _
    rw [h1, putBack_ok, andThen_ok]
    exact hf a i' inp' h2
  · show (andThen (putBack _ (m.run duplex i (inp, out))) _).1 ≠ _
    rw [h1]
    exact (nomatch ·)

/-- Every request is answered or refused. -/
theorem process_stops {ip : Proto ι} {op : Proto ω} {B : Nat} (D : ip.Digests B) (O : op.HaltsWrites) (S : Schema) (sv : Service η)
    (L : FloatLib) (mem : List Nat → Nat) (msd : Int) (s : Server ι ω η) (inp out : Bytes) (hB : inp.length < B) :
    ∃ N, Returns (process ip op S L mem msd N sv) s (inp, out) := by
  obtain ⟨i, o, h⟩ := s
  rcases D.messageBegin i inp hB out with ⟨⟨⟨name, ty, q⟩, e⟩, i', inp', h1, h2⟩ | ⟨inp', h1, -⟩
  · have h1' : (P.input (ω := ω) (η := η) ip.readMessageBegin).run duplex ⟨i, o, h⟩ (inp, out) =
        (.ok (((name, ty, q), e), ⟨i', o, h⟩), (inp', out)) := by
      rw [P.run_input]
      show putBack _ (ip.readMessageBegin.run duplex i (inp, out)) = _
      rw [h1, putBack_ok]
    simp only [Shrinks] at h2
    have hend : ∀ {α} (f : GoErr → P (Server ι ω η) α) i h inp, (∀ e i' inp', Returns (f e) ⟨i', o, h⟩ (inp', out)) →
        Returns (P.input ip.readMessageEnd >>= f) ⟨i, o, h⟩ (inp, out) :=
      fun f i h inp hf => Returns.input (D.messageEnd i inp) fun _ _ _ _ => hf _ _ _
    suffices hs : ∃ N, Returns (if e.isSome = true then pure (false, e) else match sv.find name with
        | none => processUnknown ip op msd N name q
        | some m => processMethod ip op S L mem msd N sv m q) ⟨i', o, h⟩ (inp', out) by
      obtain ⟨N, hN⟩ := hs
      refine ⟨N, ?_⟩
      unfold process
      refine Returns.bind (by unfold Returns; rw [h1']; exact (nomatch ·)) fun a s' t' ha => ?_
      rw [h1'] at ha
      cases ha
      exact hN
    by_cases he : e.isSome = true
    · simp only [he, if_true]
      exact ⟨0, (P.Halts.pure _).stops _ _⟩
    simp only [he]
    cases hf : sv.find name with
    | none =>
      refine ⟨inp'.length + 2, ?_⟩
      refine Returns.input (wp_skip' D msd _ _ _ i' inp' (by omega) (by omega)) fun _ i2 inp2 _ => ?_
      refine hend _ _ _ _ fun _ i3 inp3 => ?_
      exact (P.Halts.bind (.on (halts_sendException O _ _ _)) fun _ => .pure _).stops _ _
    | some m =>
      rcases wp_readInto' D (S := S) (L := L) (mem := mem) (msd := msd) (inp'.length + 3) [] (S.structs m.args) ((S.structs m.args).fresh S)
        i' inp' (by omega) (by omega) out with ⟨⟨as, err⟩, i2, inp2, h3, -⟩ | ⟨inp2, h3, -⟩
      · have h3' : ∀ n, inp'.length + 3 ≤ n → (P.input (ω := ω) (η := η) (genRead ip S L mem msd n [] (S.structs m.args))).run duplex
            ⟨i', o, h⟩ (inp', out) = (.ok ((as, err), ⟨i2, o, h⟩), (inp2, out)) := by
          intro n hn
          rw [P.run_input]
          show putBack _ ((genRead ip S L mem msd n [] (S.structs m.args)).run duplex i' (inp', out)) = _
          have h3 : (genRead ip S L mem msd (inp'.length + 3) [] (S.structs m.args)).run duplex i' (inp', out) = _ := h3
          rw [(le_read (Proto.Le.refl _) S L mem msd hn [] _).run duplex i' _ (by rw [h3]; simp), h3, putBack_ok]
        have step : ∀ n, inp'.length + 3 ≤ n → ∀ {α} (f : Attrs × GoErr → P (Server ι ω η) α), Returns (f (as, err)) ⟨i2, o, h⟩ (inp2, out) →
            Returns (P.input (genRead ip S L mem msd n [] (S.structs m.args)) >>= f) ⟨i', o, h⟩ (inp', out) := by
          intro n hn α f hf
          refine Returns.bind (by unfold Returns; rw [h3' n hn]; exact (nomatch ·)) fun a s' t' ha => ?_
          rw [h3' n hn] at ha
          cases ha
          exact hf
        cases err with
        | some x =>
          refine ⟨inp'.length + 3, step _ (Nat.le_refl _) _ ?_⟩
          refine hend _ _ _ _ fun _ i3 inp3 => ?_
          exact (P.Halts.bind (.on (halts_sendException O _ _ _)) fun _ => .pure _).stops _ _
        | none =>
          cases hh : sv.handle m h as with
          | mk x h' =>
          obtain ⟨r, _ | y⟩ := x
          · refine ⟨max (sizeOf (if m.oneway then (S.structs m.result).fresh S else r) + 1) (inp'.length + 3), step _ (Nat.le_max_right ..) _ ?_⟩
            refine hend _ _ _ _ fun _ i3 inp3 => ?_
            refine Returns.bind (P.Halts.get.stops _ _) fun a s' t' ha => ?_
            rw [P.run_get] at ha
            cases ha
            simp only [hh]
            exact (P.Halts.bind (.modify _) fun _ => .bind (.on (halts_reply O _ _ _ (by omega) q)) fun _ => .pure _).stops _ _
          · refine ⟨inp'.length + 3, step _ (Nat.le_refl _) _ ?_⟩
            refine hend _ _ _ _ fun _ i3 inp3 => ?_
            refine Returns.bind (P.Halts.get.stops _ _) fun a s' t' ha => ?_
            rw [P.run_get] at ha
            cases ha
            simp only [hh]
            exact (P.Halts.bind (.modify _) fun _ => .bind (.on (halts_sendException O _ _ _)) fun _ => .pure _).stops _ _
      · refine ⟨inp'.length + 3, ?_⟩
        refine Returns.bind ?_ fun a s' t' ha => ?_
        · unfold Returns
          rw [P.run_input]
          show (putBack _ ((genReadInto ip S L mem msd _ [] (S.structs m.args) ((S.structs m.args).fresh S)).run duplex i' (inp', out))).1 ≠ _
          rw [h3]
          exact (nomatch ·)
        · rw [P.run_input] at ha
          have ha : putBack _ ((genReadInto ip S L mem msd _ [] (S.structs m.args) ((S.structs m.args).fresh S)).run duplex i' (inp', out)) = _ := ha
          rw [h3] at ha
          cases ha
  · refine ⟨0, ?_⟩
    unfold process
    refine Returns.bind ?_ fun a s' t' ha => ?_
    · unfold Returns
      rw [P.run_input]
      show (putBack _ (ip.readMessageBegin.run duplex i (inp, out))).1 ≠ _
      rw [h1]
      exact (nomatch ·)
    · rw [P.run_input] at ha
      have ha : putBack _ (ip.readMessageBegin.run duplex i (inp, out)) = _ := ha
      rw [h1] at ha
      cases ha

/-! ## Clients -/

theorem duplex_shrinks (p : Prog α) (t : Bytes × Bytes) : (p.run duplex t).2.1.length ≤ t.1.length := by
  induction p generalizing t with
  | ret a => exact Nat.le_refl _
  | panic => exact Nat.le_refl _
  | stuck => exact Nat.le_refl _
  | readAll n k ih =>
    obtain ⟨inp, out⟩ := t
    rw [Prog.run, duplex_readAll]
    by_cases hn : n ≤ inp.length
    · rw [if_pos hn]
      refine Nat.le_trans (ih _ _) ?_
      simp
    · rw [if_neg hn]
      refine Nat.le_trans (ih _ _) ?_
      simp
  | write bs k ih => exact ih _ _
  | flush k ih => exact ih _ _

section
variable {p : Proto π} {B : Nat} (D : p.Digests B)
include D

theorem wp_appReadFields (msd : Int) (fuel : Nat) : ∀ (n : Nat) (x : AppExc) (s : π) (inp : Bytes), inp.length < B → inp.length + 1 < fuel →
    inp.length < n → Wp (appReadFields p msd fuel n x) s inp (Shrinks inp) AnyPanic
  | 0, _, _, _, _, _, h => by omega
  | n + 1, x, s, inp, hB, hf, hn => by
    unfold appReadFields
    refine Wp.bind (D.fieldBegin s inp hB) fun r s' i h => Wp.ite (fun _ => Wp.pure h.1) fun _ => Wp.ite (fun _ => Wp.pure h.1) fun ht => ?_
    have h2 := h.2 ht
    refine Wp.bind (Q := Shrinks i) ?_ fun r s2 j hj => ?_
    · exact Wp.ite (fun _ => Wp.bind (D.string s' i (by omega)) fun _ _ _ h => Wp.pure h) fun _ =>
        Wp.ite (fun _ => Wp.bind (D.i32 s' i (by omega)) fun _ _ _ h => Wp.pure h) fun _ =>
        Wp.bind (wp_skip' D msd _ _ _ s' i (by omega) (by omega)) fun _ _ _ h => Wp.pure h
    · simp only [Shrinks] at hj
      refine Wp.ite (fun _ => Wp.pure (by simp only [Shrinks]; omega)) fun _ => Wp.bind (D.fieldEnd s2 j) fun _ s3 k hk => ?_
      simp only [Shrinks] at hk
      exact Wp.ite (fun _ => Wp.pure (by simp only [Shrinks]; omega)) fun _ =>
        Wp.mono (wp_appReadFields msd fuel n _ s3 k (by omega) (by omega) (by omega)) fun _ _ l hl => by simp only [Shrinks] at hl ⊢; omega

theorem wp_appRead (msd : Int) (fuel : Nat) (s : π) (inp : Bytes) (hB : inp.length < B) (hf : inp.length + 1 < fuel) :
    Wp (appRead p msd fuel) s inp (Shrinks inp) AnyPanic := by
  refine Wp.bind (D.structBegin s inp) fun r s' i hi => Wp.ite (fun _ => Wp.pure hi) fun _ => ?_
  simp only [Shrinks] at hi
  refine Wp.bind (wp_appReadFields D msd fuel fuel _ s' i (by omega) (by omega) (by omega)) fun r s2 j hj =>
    Wp.ite (fun _ => Wp.pure (by simp only [Shrinks] at hj ⊢; omega)) fun _ => ?_
  simp only [Shrinks] at hj
  exact Wp.bind (D.structEnd s2 j) fun _ _ k hk => Wp.pure (by simp only [Shrinks] at hk ⊢; omega)

omit D in
theorem Wp.inp {m : P π α} {Q : α → Bytes → Prop} {c : Client π} {inp : Bytes} (h : ∀ s, Wp m s inp (fun a _ i => Q a i) AnyPanic) :
    Wp (Client.inp m) c inp (fun a _ i => Q a i) AnyPanic := by
  intro out
  cases hc : c.input with
  | none => exact .inr ⟨inp, by show (Client.inp m c).run duplex _ = _; simp only [Client.inp, hc]; rfl, trivial⟩
  | some s =>
    rcases h s out with ⟨a, s', i, h1, h2⟩ | ⟨i, h1, h2⟩
    · exact .inl ⟨a, _, i, by rw [Client.run_inp m c s hc, h1, putBack_ok], h2⟩
    · exact .inr ⟨i, by rw [Client.run_inp m c s hc, h1]; rfl, trivial⟩

/-- Every reply is taken or refused. -/
theorem wp_recv (S : Schema) (L : FloatLib) (mem : List Nat → Nat) (msd : Int) (fuel : Nat) (m : Method) (c : Client π) (inp : Bytes)
    (hB : inp.length < B) (hf : inp.length + 2 < fuel) :
    Wp (Client.recv p S L mem msd fuel m) c inp (fun _ _ _ => True) AnyPanic := by
  have h0 : Wp (Client.ensureInput : P (Client π) Unit) c inp (fun _ _ i => i = inp) AnyPanic := by
    intro out
    show (∃ a s' inp', (Client.ensureInput c).run duplex _ = _ ∧ _) ∨ (∃ inp', (Client.ensureInput c).run duplex _ = _ ∧ _)
    unfold Client.ensureInput
    split
    · exact .inl ⟨_, _, _, rfl, rfl⟩
    · split
      · exact .inr ⟨_, rfl, trivial⟩
      · exact .inl ⟨_, _, _, rfl, rfl⟩
  refine Wp.bind h0 fun _ c1 i hi => ?_
  subst hi
  refine Wp.bind (Q := fun _ _ j => j.length ≤ i.length) (Wp.inp fun s => D.messageBegin s i hB) fun r c2 j hj =>
    Wp.ite (fun _ => Wp.pure trivial) fun _ => Wp.ite (fun _ => ?_) fun _ => ?_
  · refine Wp.bind (Q := fun _ _ k => k.length ≤ j.length) (Wp.inp fun s => wp_appRead D msd fuel s j (by omega) (by omega)) fun r c3 k hk =>
      Wp.ite (fun _ => Wp.pure trivial) fun _ => ?_
    exact Wp.bind (Q := fun _ _ l => l.length ≤ k.length) (Wp.inp fun s => D.messageEnd s k) fun _ _ _ _ =>
      Wp.ite (fun _ => Wp.pure trivial) fun _ => Wp.pure trivial
  · refine Wp.bind (Q := fun _ _ k => k = j) (Wp.get rfl) fun _ _ k hk => ?_
    subst hk
    refine Wp.ite (fun _ => Wp.pure trivial) fun _ => ?_
    refine Wp.bind (Q := fun _ _ l => l.length ≤ k.length) (Wp.inp fun s => wp_readInto' D fuel [] _ _ s k (by omega) (by omega)) fun r c3 l hl => ?_
    exact Wp.bind (Q := fun _ _ u => u.length ≤ l.length) (Wp.inp fun s => D.messageEnd s l) fun _ _ _ _ => Wp.pure trivial

/-- Whatever waits on the connection, a call comes to an end. -/
theorem call_stops (W : p.HaltsWrites) (S : Schema) (L : FloatLib) (mem : List Nat → Nat) (msd : Int) (m : Method) (args : Attrs) (c : Client π)
    (inp out : Bytes) (hB : inp.length < B) (fuel : Nat) (hf : inp.length + 2 < fuel) (ha : sizeOf args < fuel) :
    Returns (Client.call p S L mem msd fuel m args) c (inp, out) := by
  unfold Client.call
  refine Returns.bind ((halts_send W m args fuel ha).stops _ _) fun e c' t' he => ?_
  have hl := duplex_shrinks (Client.send p S fuel m args c) (inp, out)
  rw [show (Client.send p S fuel m args c).run duplex (inp, out) = _ from he] at hl
  obtain ⟨inp', out'⟩ := t'
  simp only at hl
  split
  · exact (P.Halts.pure _).stops _ _
  · split
    · exact (P.Halts.pure _).stops _ _
    · exact (wp_recv D S L mem msd fuel m c' inp' (by omega) (by omega)).stops

end

end Thrift
