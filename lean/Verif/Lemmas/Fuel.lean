import Verif.Model.Service
import Verif.Model.Binary
import Verif.Model.Compact
import Verif.Lemmas.Run
/-!
# More fuel changes nothing

Loops of the Go code without a bound are modelled with fuel.  A run that does not
exhaust its fuel is the run with any larger fuel.
-/

namespace Thrift

/-- `q` does what `p` does, except where `p` runs out of fuel. -/
def Prog.Le : Prog α → Prog α → Prop
  | .stuck, _ => True
  | .ret a, q => q = .ret a
  | .panic, q => q = .panic
  | .readAll n k, q => ∃ k', q = .readAll n k' ∧ ∀ x, (k x).Le (k' x)
  | .write bs k, q => ∃ k', q = .write bs k' ∧ ∀ x, (k x).Le (k' x)
  | .flush k, q => ∃ k', q = .flush k' ∧ ∀ x, (k x).Le (k' x)

namespace Prog.Le

theorem refl (p : Prog α) : p.Le p := by
  induction p with
  | ret a => rfl
  | panic => rfl
  | stuck => trivial
  | readAll n k ih => exact ⟨k, rfl, ih⟩
  | write bs k ih => exact ⟨k, rfl, ih⟩
  | flush k ih => exact ⟨k, rfl, ih⟩

theorem bind {p q : Prog α} {f g : α → Prog β} (h : p.Le q) (hf : ∀ a, (f a).Le (g a)) : (p.bind f).Le (q.bind g) := by
  induction p generalizing q with
  | ret a => cases h; exact hf a
  | panic => cases h; rfl
  | stuck => trivial
  | readAll n k ih => obtain ⟨k', rfl, h⟩ := h; exact ⟨_, rfl, fun x => ih x (h x)⟩
  | write bs k ih => obtain ⟨k', rfl, h⟩ := h; exact ⟨_, rfl, fun x => ih x (h x)⟩
  | flush k ih => obtain ⟨k', rfl, h⟩ := h; exact ⟨_, rfl, fun x => ih x (h x)⟩

theorem run {p q : Prog α} (h : p.Le q) (T : Transport σ) (t : σ) (hs : (p.run T t).1 ≠ .stuck) : q.run T t = p.run T t := by
  induction p generalizing q t with
  | ret a => cases h; rfl
  | panic => cases h; rfl
  | stuck => exact absurd rfl hs
  | readAll n k ih =>
    obtain ⟨k', rfl, h⟩ := h
    simp only [Prog.run] at hs ⊢
    generalize T.readAll n t = x at hs ⊢
    obtain ⟨x | _ | _, t'⟩ := x
    · exact ih _ (h _) _ hs
    · rfl
    · rfl
  | write bs k ih =>
    obtain ⟨k', rfl, h⟩ := h
    simp only [Prog.run] at hs ⊢
    generalize T.write bs t = x at hs ⊢
    obtain ⟨x | _ | _, t'⟩ := x
    · exact ih _ (h _) _ hs
    · rfl
    · rfl
  | flush k ih =>
    obtain ⟨k', rfl, h⟩ := h
    simp only [Prog.run] at hs ⊢
    generalize T.flush t = x at hs ⊢
    obtain ⟨x | _ | _, t'⟩ := x
    · exact ih _ (h _) _ hs
    · rfl
    · rfl

end Prog.Le

/-- The same for code with an object state. -/
def P.Le (m m' : P π α) : Prop := ∀ s, (m s).Le (m' s)

namespace P.Le

theorem refl (m : P π α) : P.Le m m := fun s => Prog.Le.refl (m s)

theorem stuck (m : P π α) : P.Le P.stuck m := fun _ => trivial

theorem bind {m m' : P π α} {f f' : α → P π β} (h : P.Le m m') (hf : ∀ a, P.Le (f a) (f' a)) : P.Le (m >>= f) (m' >>= f') :=
  fun s => Prog.Le.bind (h s) fun a => hf a.1 a.2

theorem ite {c : Prop} [Decidable c] {a a' b b' : P π α} (ha : P.Le a a') (hb : P.Le b b') :
    P.Le (if c then a else b) (if c then a' else b') := by
  split
  · exact ha
  · exact hb

theorem on {get : τ → π} {set : π → τ → τ} {m m' : P π α} (h : P.Le m m') : P.Le (P.on get set m) (P.on get set m') :=
  fun s => Prog.Le.bind (h (get s)) fun _ => Prog.Le.refl _

theorem run {m m' : P π α} (h : P.Le m m') (T : Transport σ) (s : π) (t : σ) (hs : (m.run T s t).1 ≠ .stuck) :
    m'.run T s t = m.run T s t := (h s).run T t hs

end P.Le

/-- Two protocols that differ in fuel at most. -/
structure Proto.Le (p q : Proto π) : Prop where
  writeMessageBegin : ∀ n t i, P.Le (p.writeMessageBegin n t i) (q.writeMessageBegin n t i)
  writeMessageEnd : P.Le p.writeMessageEnd q.writeMessageEnd
  writeStructBegin : ∀ n, P.Le (p.writeStructBegin n) (q.writeStructBegin n)
  writeStructEnd : P.Le p.writeStructEnd q.writeStructEnd
  writeFieldBegin : ∀ n t i, P.Le (p.writeFieldBegin n t i) (q.writeFieldBegin n t i)
  writeFieldEnd : P.Le p.writeFieldEnd q.writeFieldEnd
  writeFieldStop : P.Le p.writeFieldStop q.writeFieldStop
  writeMapBegin : ∀ k v n, P.Le (p.writeMapBegin k v n) (q.writeMapBegin k v n)
  writeMapEnd : P.Le p.writeMapEnd q.writeMapEnd
  writeListBegin : ∀ t n, P.Le (p.writeListBegin t n) (q.writeListBegin t n)
  writeListEnd : P.Le p.writeListEnd q.writeListEnd
  writeSetBegin : ∀ t n, P.Le (p.writeSetBegin t n) (q.writeSetBegin t n)
  writeSetEnd : P.Le p.writeSetEnd q.writeSetEnd
  writeBool : ∀ v, P.Le (p.writeBool v) (q.writeBool v)
  writeByte : ∀ v, P.Le (p.writeByte v) (q.writeByte v)
  writeI16 : ∀ v, P.Le (p.writeI16 v) (q.writeI16 v)
  writeI32 : ∀ v, P.Le (p.writeI32 v) (q.writeI32 v)
  writeI64 : ∀ v, P.Le (p.writeI64 v) (q.writeI64 v)
  writeDouble : ∀ v, P.Le (p.writeDouble v) (q.writeDouble v)
  writeString : ∀ v, P.Le (p.writeString v) (q.writeString v)
  writeBinary : ∀ v, P.Le (p.writeBinary v) (q.writeBinary v)
  readMessageBegin : P.Le p.readMessageBegin q.readMessageBegin
  readMessageEnd : P.Le p.readMessageEnd q.readMessageEnd
  readStructBegin : P.Le p.readStructBegin q.readStructBegin
  readStructEnd : P.Le p.readStructEnd q.readStructEnd
  readFieldBegin : P.Le p.readFieldBegin q.readFieldBegin
  readFieldEnd : P.Le p.readFieldEnd q.readFieldEnd
  readMapBegin : P.Le p.readMapBegin q.readMapBegin
  readMapEnd : P.Le p.readMapEnd q.readMapEnd
  readListBegin : P.Le p.readListBegin q.readListBegin
  readListEnd : P.Le p.readListEnd q.readListEnd
  readSetBegin : P.Le p.readSetBegin q.readSetBegin
  readSetEnd : P.Le p.readSetEnd q.readSetEnd
  readBool : P.Le p.readBool q.readBool
  readByte : P.Le p.readByte q.readByte
  readI16 : P.Le p.readI16 q.readI16
  readI32 : P.Le p.readI32 q.readI32
  readI64 : P.Le p.readI64 q.readI64
  readDouble : P.Le p.readDouble q.readDouble
  readString : P.Le p.readString q.readString
  readBinary : P.Le p.readBinary q.readBinary
  flush : P.Le p.flush q.flush

theorem Proto.Le.refl (p : Proto π) : p.Le p := by
  constructor <;> intros <;> exact P.Le.refl _

/-! ## The compact protocol -/

namespace CompactProtocol

theorem le_varintLoop : ∀ {f f' : Nat}, f ≤ f' → ∀ shift result, P.Le (readVarint64Loop f shift result) (readVarint64Loop f' shift result)
  | 0, _, _, _, _ => P.Le.stuck _
  | f + 1, 0, h, _, _ => by omega
  | f + 1, f' + 1, h, shift, result =>
    P.Le.bind (P.Le.refl _) fun _ => P.Le.ite (P.Le.refl _) (P.Le.ite (P.Le.refl _) (le_varintLoop (by omega) _ _))

variable {f f' : Nat} (h : f ≤ f')
include h

theorem le_varint64 : P.Le (readVarint64 f) (readVarint64 f') := le_varintLoop h 0 0
theorem le_varint32 : P.Le (readVarint32 f) (readVarint32 f') := P.Le.bind (le_varint64 h) fun _ => P.Le.refl _
theorem le_i32 : P.Le (readI32 f) (readI32 f') := P.Le.bind (le_varint32 h) fun _ => P.Le.refl _
theorem le_i16 : P.Le (readI16 f) (readI16 f') := P.Le.bind (le_i32 h) fun _ => P.Le.refl _
theorem le_i64 : P.Le (readI64 f) (readI64 f') := P.Le.bind (le_varint64 h) fun _ => P.Le.refl _
theorem le_binary : P.Le (readBinary f) (readBinary f') := P.Le.bind (le_varint32 h) fun _ => P.Le.refl _
theorem le_string : P.Le (readString f) (readString f') := P.Le.bind (le_binary h) fun _ => P.Le.refl _
theorem le_mapBegin : P.Le (readMapBegin f) (readMapBegin f') := P.Le.bind (le_varint32 h) fun _ => P.Le.refl _

theorem le_messageBegin : P.Le (readMessageBegin f) (readMessageBegin f') :=
  P.Le.bind (P.Le.refl _) fun _ => P.Le.ite (P.Le.refl _) <| P.Le.bind (P.Le.refl _) fun _ =>
    P.Le.ite (P.Le.refl _) <| P.Le.ite (P.Le.refl _) <| P.Le.bind (le_varint32 h) fun _ =>
    P.Le.ite (P.Le.refl _) <| P.Le.bind (le_string h) fun _ => P.Le.refl _

theorem le_fieldBegin : P.Le (readFieldBegin f) (readFieldBegin f') := by
  refine P.Le.bind (P.Le.refl _) fun _ => P.Le.ite (P.Le.refl _) <| P.Le.ite (P.Le.refl _) <| P.Le.bind (P.Le.refl _) fun _ => ?_
  refine P.Le.ite ?_ (P.Le.refl _)
  exact P.Le.bind (le_i16 h) fun _ => P.Le.refl _

theorem le_listBegin : P.Le (readListBegin f) (readListBegin f') := by
  refine P.Le.bind (P.Le.refl _) fun _ => P.Le.ite (P.Le.refl _) ?_
  refine P.Le.ite ?_ (P.Le.refl _)
  exact P.Le.bind (P.Le.bind (le_varint32 h) fun _ => P.Le.refl _) fun _ => P.Le.refl _

end CompactProtocol

theorem compact_le {f f' : Nat} (h : f ≤ f') : (compact f).Le (compact f') := by
  constructor <;> intros <;> first
    | exact P.Le.refl _
    | exact CompactProtocol.le_messageBegin h
    | exact CompactProtocol.le_fieldBegin h
    | exact CompactProtocol.le_mapBegin h
    | exact CompactProtocol.le_listBegin h
    | exact CompactProtocol.le_i16 h
    | exact CompactProtocol.le_i32 h
    | exact CompactProtocol.le_i64 h
    | exact CompactProtocol.le_string h
    | exact CompactProtocol.le_binary h

/-! ## Skip and application exceptions -/

section
variable {p q : Proto π} (K : p.Le q)
include K

theorem le_skipFields {f g : TType → P π GoErr} (hf : ∀ t, P.Le (f t) (g t)) : ∀ {n n' : Nat}, n ≤ n' →
    P.Le (skipFields p f n) (skipFields q g n')
  | 0, _, _ => P.Le.stuck _
  | n + 1, 0, h => by omega
  | n + 1, n' + 1, h =>
    P.Le.bind K.readFieldBegin fun _ => P.Le.ite (P.Le.refl _) <| P.Le.bind (hf _) fun _ =>
      P.Le.bind K.readFieldEnd fun _ => le_skipFields hf (by omega)

omit K in
theorem le_repeatN {b b' : P π Unit} (h : P.Le b b') : ∀ n, P.Le (repeatN n b) (repeatN n b')
  | 0 => P.Le.refl _
  | n + 1 => P.Le.bind h fun _ => le_repeatN h n

theorem le_skip (msd : Int) : ∀ {n n' : Nat}, n ≤ n' → ∀ t d, P.Le (skip p msd n t d) (skip q msd n' t d)
  | 0, _, _, _, _ => P.Le.stuck _
  | n + 1, 0, h, _, _ => by omega
  | n + 1, n' + 1, h, t, d => by
    have ih : ∀ t d, P.Le (skip p msd n t d) (skip q msd n' t d) := le_skip msd (by omega)
    have S : ∀ {α : Type} {m m' : P π (α × GoErr)}, P.Le m m' → P.Le (do return (← m).2) (do return (← m').2) :=
      fun h => P.Le.bind h fun _ => P.Le.refl _
    unfold skip
    refine P.Le.ite (P.Le.refl _) <| P.Le.ite (S K.readBool) <| P.Le.ite (S K.readByte) <| P.Le.ite (S K.readI16) <|
      P.Le.ite (S K.readI32) <| P.Le.ite (S K.readI64) <| P.Le.ite (S K.readDouble) <| P.Le.ite (S K.readString) <|
      P.Le.ite ?_ <| P.Le.ite ?_ <| P.Le.ite ?_ <| P.Le.ite ?_ (P.Le.refl _)
    · exact P.Le.bind K.readStructBegin fun _ => P.Le.ite (P.Le.refl _) <|
        P.Le.bind (le_skipFields K (fun t => ih t _) (by omega)) fun _ => K.readStructEnd
    · exact P.Le.bind K.readMapBegin fun _ => P.Le.ite (P.Le.refl _) <| P.Le.bind (le_repeatN (P.Le.bind (ih _ _) fun _ =>
        P.Le.bind (ih _ _) fun _ => P.Le.refl _) _) fun _ => K.readMapEnd
    · exact P.Le.bind K.readSetBegin fun _ => P.Le.ite (P.Le.refl _) <| P.Le.bind (le_repeatN (P.Le.bind (ih _ _) fun _ =>
        P.Le.refl _) _) fun _ => K.readSetEnd
    · exact P.Le.bind K.readListBegin fun _ => P.Le.ite (P.Le.refl _) <| P.Le.bind (le_repeatN (P.Le.bind (ih _ _) fun _ =>
        P.Le.refl _) _) fun _ => K.readListEnd

theorem le_appReadFields (msd : Int) {n n' : Nat} (h : n ≤ n') : ∀ {l l' : Nat}, l ≤ l' → ∀ x,
    P.Le (appReadFields p msd n l x) (appReadFields q msd n' l' x)
  | 0, _, _, _ => P.Le.stuck _
  | l + 1, 0, h', _ => by omega
  | l + 1, l' + 1, h', x =>
    P.Le.bind K.readFieldBegin fun a => P.Le.ite (P.Le.refl _) <| P.Le.ite (P.Le.refl _) <|
      P.Le.bind (P.Le.ite (P.Le.bind K.readString fun _ => P.Le.refl _) <| P.Le.ite (P.Le.bind K.readI32 fun _ => P.Le.refl _) <|
        P.Le.bind (le_skip K msd h _ _) fun _ => P.Le.refl _) fun b =>
      P.Le.ite (P.Le.refl _) <| P.Le.bind K.readFieldEnd fun _ => P.Le.ite (P.Le.refl _) (le_appReadFields msd h (by omega) _)

theorem le_appRead (msd : Int) {n n' : Nat} (h : n ≤ n') : P.Le (appRead p msd n) (appRead q msd n') :=
  P.Le.bind K.readStructBegin fun _ => P.Le.ite (P.Le.refl _) <| P.Le.bind (le_appReadFields K msd h h _) fun _ =>
    P.Le.ite (P.Le.refl _) <| P.Le.bind K.readStructEnd fun _ => P.Le.refl _

theorem le_appWriteType (x : AppExc) : P.Le (appWriteType p x) (appWriteType q x) :=
  P.Le.bind (K.writeFieldBegin _ _ _) fun _ => P.Le.ite (P.Le.refl _) <| P.Le.bind (K.writeI32 _) fun _ => P.Le.ite (P.Le.refl _) <|
    P.Le.bind K.writeFieldEnd fun _ => P.Le.ite (P.Le.refl _) <| P.Le.bind K.writeFieldStop fun _ => P.Le.ite (P.Le.refl _) <|
    K.writeStructEnd

theorem le_appWrite (x : AppExc) : P.Le (appWrite p x) (appWrite q x) :=
  P.Le.bind (K.writeStructBegin _) fun _ => P.Le.ite (P.Le.bind (K.writeFieldBegin _ _ _) fun _ => P.Le.ite (P.Le.refl _) <|
    P.Le.bind (K.writeString _) fun _ => P.Le.ite (P.Le.refl _) <| P.Le.bind K.writeFieldEnd fun _ => P.Le.ite (P.Le.refl _) <|
    le_appWriteType K x) (le_appWriteType K x)

/-! ## Generated code -/

omit K in
theorem le_wrap {w : Err → Err} {m m' : P π GoErr} (h : P.Le m m') : P.Le (wrapErr w m) (wrapErr w m') :=
  P.Le.bind h fun _ => P.Le.refl _

section
variable (S : Schema) {wr wr' : Bytes → Bytes → Ty → Dyn → P π GoErr} (hw : ∀ fn sn ty d, P.Le (wr fn sn ty d) (wr' fn sn ty d))
include hw

theorem le_writeMember (sd : StructDef) (attrs : List (Int × Dyn)) (m : Member) :
    P.Le (genWriteMember p S wr sd attrs m) (genWriteMember q S wr' sd attrs m) :=
  P.Le.ite (P.Le.bind (le_wrap (K.writeFieldBegin _ _ _)) fun _ => P.Le.ite (P.Le.refl _) <| P.Le.bind (hw _ _ _ _) fun _ =>
    P.Le.ite (P.Le.refl _) (le_wrap K.writeFieldEnd)) (P.Le.refl _)

theorem le_writeMembers (sd : StructDef) (attrs : List (Int × Dyn)) : ∀ ms,
    P.Le (genWriteMembers p S wr sd attrs ms) (genWriteMembers q S wr' sd attrs ms)
  | [] => P.Le.refl _
  | m :: ms => P.Le.bind (le_writeMember K S hw sd attrs m) fun _ => P.Le.ite (P.Le.refl _) (le_writeMembers sd attrs ms)

end

theorem le_writeBody (sd : StructDef) {m m' : P π GoErr} (h : P.Le m m') : P.Le (genWriteBody p sd m) (genWriteBody q sd m') :=
  P.Le.bind (le_wrap (K.writeStructBegin _)) fun _ => P.Le.ite (P.Le.refl _) <| P.Le.bind h fun _ => P.Le.ite (P.Le.refl _) <|
    P.Le.bind (le_wrap K.writeFieldStop) fun _ => P.Le.ite (P.Le.refl _) (le_wrap K.writeStructEnd)

omit K in
theorem le_writeElems {w w' : Dyn → P π GoErr} (h : ∀ d, P.Le (w d) (w' d)) : ∀ ds, P.Le (genWriteElems w ds) (genWriteElems w' ds)
  | [] => P.Le.refl _
  | d :: ds => P.Le.bind (h d) fun _ => P.Le.ite (P.Le.refl _) (le_writeElems h ds)

omit K in
theorem le_writeEntries {w w' v v' : Dyn → P π GoErr} (h : ∀ d, P.Le (w d) (w' d)) (hv : ∀ d, P.Le (v d) (v' d)) : ∀ es,
    P.Le (genWriteEntries w v es) (genWriteEntries w' v' es)
  | [] => P.Le.refl _
  | _ :: es => P.Le.bind (h _) fun _ => P.Le.ite (P.Le.refl _) <| P.Le.bind (hv _) fun _ => P.Le.ite (P.Le.refl _) (le_writeEntries h hv es)

theorem le_writeVal (S : Schema) : ∀ {n n' : Nat}, n ≤ n' → ∀ fn sn ty d,
    P.Le (genWriteVal p S n fn sn ty d) (genWriteVal q S n' fn sn ty d)
  | 0, _, _, _, _, _, _ => P.Le.stuck _
  | n + 1, 0, h, _, _, _, _ => by omega
  | n + 1, n' + 1, h, fn, sn, ty, d => by
    have ih : ∀ fn sn ty d, P.Le (genWriteVal p S n fn sn ty d) (genWriteVal q S n' fn sn ty d) := le_writeVal S (by omega)
    unfold genWriteVal
    split
    · exact le_wrap (K.writeBool _)
    · exact le_wrap (K.writeByte _)
    · exact le_wrap (K.writeI16 _)
    · exact le_wrap (K.writeI32 _)
    · exact le_wrap (K.writeI64 _)
    · exact le_wrap (K.writeDouble _)
    · exact le_wrap (K.writeString _)
    · exact le_wrap (K.writeBinary _)
    · exact P.Le.ite (le_wrap (K.writeI32 _)) (P.Le.refl _)
    · exact P.Le.ite (le_wrap (le_writeBody K _ (le_writeMembers K S ih _ _ _))) (P.Le.refl _)
    · exact P.Le.bind (le_wrap (K.writeListBegin _ _)) fun _ => P.Le.ite (P.Le.refl _) <| P.Le.bind (le_writeElems (fun d => ih _ _ _ _) _) fun _ =>
        P.Le.ite (P.Le.refl _) (le_wrap K.writeListEnd)
    · exact P.Le.bind (le_wrap (K.writeSetBegin _ _)) fun _ => P.Le.ite (P.Le.refl _) <| P.Le.bind (le_writeElems (fun d => ih _ _ _ _) _) fun _ =>
        P.Le.ite (P.Le.refl _) (le_wrap K.writeSetEnd)
    · refine P.Le.bind (le_wrap (K.writeMapBegin _ _ _)) fun _ => P.Le.ite (P.Le.refl _) ?_
      split
      · exact P.Le.refl _
      · exact P.Le.bind (le_writeEntries (fun d => ih _ _ _ _) (fun d => ih _ _ _ _) _) fun _ => P.Le.ite (P.Le.refl _) (le_wrap K.writeMapEnd)
    · exact P.Le.refl _

theorem le_write (S : Schema) {n n' : Nat} (h : n ≤ n') (sd : StructDef) (attrs : List (Int × Dyn)) :
    P.Le (genWrite p S n sd attrs) (genWrite q S n' sd attrs) :=
  le_writeBody K _ (le_writeMembers K S (le_writeVal K S h) _ _ _)

theorem le_writeResult (S : Schema) {n n' : Nat} (h : n ≤ n') (sd : StructDef) (attrs : List (Int × Dyn)) :
    P.Le (genWriteResult p S n sd attrs) (genWriteResult q S n' sd attrs) := by
  refine le_writeBody K _ ?_
  split
  · exact le_writeMember K S (le_writeVal K S h) _ _ _
  · exact P.Le.refl _

section
variable (L : FloatLib)

omit K in
theorem le_readList {rd rd' : Nat → P π (Dyn × GoErr)} (h : ∀ i, P.Le (rd i) (rd' i)) : ∀ n i l,
    P.Le (genReadList L rd n i l) (genReadList L rd' n i l)
  | 0, _, _ => P.Le.refl _
  | n + 1, i, _ => P.Le.bind (h i) fun _ => P.Le.ite (P.Le.refl _) <| P.Le.bind (P.Le.refl _) fun _ => le_readList h n _ _

omit K in
theorem le_readSet {rd rd' : Nat → P π (Dyn × GoErr)} (h : ∀ i, P.Le (rd i) (rd' i)) : ∀ n i l,
    P.Le (genReadSet L rd n i l) (genReadSet L rd' n i l)
  | 0, _, _ => P.Le.refl _
  | n + 1, i, _ => P.Le.bind (h i) fun _ => P.Le.ite (P.Le.refl _) <| P.Le.bind (P.Le.refl _) fun _ => le_readSet h n _ _

omit K in
theorem le_readMap {rd rd' rv rv' : Nat → P π (Dyn × GoErr)} (h : ∀ i, P.Le (rd i) (rd' i)) (hv : ∀ i, P.Le (rv i) (rv' i)) : ∀ n i l,
    P.Le (genReadMap L rd rv n i l) (genReadMap L rd' rv' n i l)
  | 0, _, _ => P.Le.refl _
  | n + 1, _, _ => P.Le.bind (h _) fun _ => P.Le.ite (P.Le.refl _) <| P.Le.bind (hv _) fun _ => P.Le.ite (P.Le.refl _) <|
      P.Le.bind (P.Le.refl _) fun _ => le_readMap h hv n _ _

end

section
variable {rd rd' : Bytes → Bytes → Member → P π (Dyn × GoErr)} (h : ∀ fn sn m, P.Le (rd fn sn m) (rd' fn sn m))
  {sk sk' : TType → P π GoErr} (hs : ∀ t, P.Le (sk t) (sk' t)) (sd : StructDef)
include h hs

omit K in
theorem le_readMember (attrs : List (Int × Dyn)) (name : Bytes) (t : TType) (id : I16) :
    P.Le (genReadMember rd sk sd attrs name t id) (genReadMember rd' sk' sd attrs name t id) := by
  unfold genReadMember
  split
  · exact P.Le.ite (P.Le.bind (h _ _ _) fun _ => P.Le.refl _) <| P.Le.ite (P.Le.bind (hs _) fun _ => P.Le.refl _) <|
      P.Le.bind (h _ _ _) fun _ => P.Le.refl _
  · exact P.Le.bind (hs _) fun _ => P.Le.refl _

theorem le_readFields : ∀ {n n' : Nat}, n ≤ n' → ∀ attrs, P.Le (genReadFields p rd sk sd n attrs) (genReadFields q rd' sk' sd n' attrs)
  | 0, _, _, _ => P.Le.stuck _
  | n + 1, 0, h', _ => by omega
  | n + 1, n' + 1, h', attrs =>
    P.Le.bind K.readFieldBegin fun _ => P.Le.ite (P.Le.refl _) <| P.Le.ite (P.Le.refl _) <|
      P.Le.bind (le_readMember h hs sd _ _ _ _) fun _ => P.Le.ite (P.Le.refl _) <| P.Le.bind K.readFieldEnd fun _ =>
      P.Le.ite (P.Le.refl _) (le_readFields (by omega) _)

end

theorem le_readBody (sd : StructDef) (attrs : List (Int × Dyn)) {f f' : List (Int × Dyn) → P π (List (Int × Dyn) × GoErr)}
    (h : ∀ a, P.Le (f a) (f' a)) : P.Le (genReadBody p sd attrs f) (genReadBody q sd attrs f') :=
  P.Le.bind K.readStructBegin fun _ => P.Le.ite (P.Le.refl _) <| P.Le.bind (h _) fun _ => P.Le.ite (P.Le.refl _) <|
    P.Le.bind K.readStructEnd fun _ => P.Le.refl _

section
variable (S : Schema) (L : FloatLib) (mem : List Nat → Nat) (msd : Int)

theorem le_readVal : ∀ {n n' : Nat}, n ≤ n' → ∀ path fn sn ty,
    P.Le (genReadVal p S L mem msd n path fn sn ty) (genReadVal q S L mem msd n' path fn sn ty)
  | 0, _, _, _, _, _, _ => P.Le.stuck _
  | n + 1, 0, h, _, _, _, _ => by omega
  | n + 1, n' + 1, h, path, fn, sn, ty => by
    have ih : ∀ path fn sn ty, P.Le (genReadVal p S L mem msd n path fn sn ty) (genReadVal q S L mem msd n' path fn sn ty) :=
      le_readVal (by omega)
    cases ty with
    | bool => exact P.Le.bind K.readBool fun _ => P.Le.refl _
    | byte => exact P.Le.bind K.readByte fun _ => P.Le.refl _
    | i16 => exact P.Le.bind K.readI16 fun _ => P.Le.refl _
    | i32 => exact P.Le.bind K.readI32 fun _ => P.Le.refl _
    | i64 => exact P.Le.bind K.readI64 fun _ => P.Le.refl _
    | double => exact P.Le.bind K.readDouble fun _ => P.Le.refl _
    | string => exact P.Le.bind K.readString fun _ => P.Le.refl _
    | binary => exact P.Le.bind K.readBinary fun _ => P.Le.refl _
    | enum k => exact P.Le.bind K.readI32 fun _ => P.Le.refl _
    | struct k =>
      exact P.Le.bind (le_readBody K _ _ fun a => le_readFields K (fun _ _ _ => ih _ _ _ _) (fun t => le_skip K msd (by omega) _ _) _ (by omega) a)
        fun _ => P.Le.refl _
    | list e =>
      exact P.Le.bind K.readListBegin fun _ => P.Le.ite (P.Le.refl _) <| P.Le.bind (le_readList L (fun i => ih _ _ _ _) _ _ _) fun _ =>
        P.Le.ite (P.Le.refl _) <| P.Le.bind K.readListEnd fun _ => P.Le.refl _
    | set e =>
      exact P.Le.bind K.readSetBegin fun _ => P.Le.ite (P.Le.refl _) <| P.Le.bind (le_readSet L (fun i => ih _ _ _ _) _ _ _) fun _ =>
        P.Le.ite (P.Le.refl _) <| P.Le.bind K.readSetEnd fun _ => P.Le.refl _
    | map k v =>
      exact P.Le.bind K.readMapBegin fun _ => P.Le.ite (P.Le.refl _) <| P.Le.bind (le_readMap L (fun i => ih _ _ _ _) (fun i => ih _ _ _ _) _ _ _) fun _ =>
        P.Le.ite (P.Le.refl _) <| P.Le.bind K.readMapEnd fun _ => P.Le.refl _

theorem le_readInto {n n' : Nat} (h : n ≤ n') (path : List Nat) (sd : StructDef) (attrs : List (Int × Dyn)) :
    P.Le (genReadInto p S L mem msd n path sd attrs) (genReadInto q S L mem msd n' path sd attrs) :=
  le_readBody K _ _ fun a => le_readFields K (fun _ _ _ => le_readVal K S L mem msd h _ _ _ _) (fun _ => le_skip K msd h _ _) _ h a

theorem le_read {n n' : Nat} (h : n ≤ n') (path : List Nat) (sd : StructDef) :
    P.Le (genRead p S L mem msd n path sd) (genRead q S L mem msd n' path sd) := le_readInto K S L mem msd h path sd _

/-! ## Clients -/

omit K in
theorem le_out {m m' : P π α} (h : P.Le m m') : P.Le (Client.out m) (Client.out m') := fun c => by
  simp only [Client.out]
  split
  · rfl
  · exact Prog.Le.bind (h _) fun _ => Prog.Le.refl _

omit K in
theorem le_inp {m m' : P π α} (h : P.Le m m') : P.Le (Client.inp m) (Client.inp m') := fun c => by
  simp only [Client.inp]
  split
  · rfl
  · exact Prog.Le.bind (h _) fun _ => Prog.Le.refl _

theorem le_send {n n' : Nat} (h : n ≤ n') (m : Method) (args : Attrs) : P.Le (Client.send p S n m args) (Client.send q S n' m args) :=
  P.Le.bind (P.Le.refl _) fun _ => P.Le.bind (P.Le.refl _) fun _ => P.Le.bind (P.Le.refl _) fun _ =>
    P.Le.bind (le_out (K.writeMessageBegin _ _ _)) fun _ => P.Le.bind (le_out (le_write K S h _ _)) fun _ =>
    P.Le.bind (le_out K.writeMessageEnd) fun _ => P.Le.bind (P.Le.refl _) fun _ => P.Le.refl _

theorem le_recv {n n' : Nat} (h : n ≤ n') (m : Method) : P.Le (Client.recv p S L mem msd n m) (Client.recv q S L mem msd n' m) :=
  P.Le.bind (P.Le.refl _) fun _ => P.Le.bind (le_inp K.readMessageBegin) fun _ => P.Le.ite (P.Le.refl _) <| P.Le.ite
    (P.Le.bind (le_inp (le_appRead K msd h)) fun _ => P.Le.ite (P.Le.refl _) <| P.Le.bind (le_inp K.readMessageEnd) fun _ => P.Le.refl _)
    (P.Le.bind (P.Le.refl _) fun _ => P.Le.ite (P.Le.refl _) <| P.Le.bind (le_inp (le_read K S L mem msd h _ _)) fun _ =>
      P.Le.bind (le_inp K.readMessageEnd) fun _ => P.Le.refl _)

/-- A call with more fuel. -/
theorem le_call {n n' : Nat} (h : n ≤ n') (m : Method) (args : Attrs) :
    P.Le (Client.call p S L mem msd n m args) (Client.call q S L mem msd n' m args) :=
  P.Le.bind (le_send K S h m args) fun _ => P.Le.ite (P.Le.refl _) <| P.Le.ite (P.Le.refl _) (le_recv K S L mem msd h m)

end
end

/-! ## Processors -/

section
variable {ip ip' : Proto ι} {op op' : Proto ω} (I : ip.Le ip') (O : op.Le op') (S : Schema) (L : FloatLib) (mem : List Nat → Nat) (msd : Int)
include O

theorem le_sendException (name : Bytes) (x : AppExc) (i : I32) : P.Le (sendException op name x i) (sendException op' name x i) :=
  P.Le.bind (O.writeMessageBegin _ _ _) fun _ => P.Le.bind (le_appWrite O x) fun _ => P.Le.bind O.writeMessageEnd fun _ => P.Le.refl _

theorem le_sendReply {n n' : Nat} (h : n ≤ n') (m : Method) (r : Attrs) (i : I32) : P.Le (sendReply op S n m r i) (sendReply op' S n' m r i) :=
  P.Le.bind (O.writeMessageBegin _ _ _) fun _ => P.Le.bind (le_writeResult O S h _ _) fun _ => P.Le.bind O.writeMessageEnd fun _ => P.Le.refl _

include I

theorem le_processMethod {n n' : Nat} (h : n ≤ n') (sv : Service η) (m : Method) (i : I32) :
    P.Le (processMethod ip op S L mem msd n sv m i) (processMethod ip' op' S L mem msd n' sv m i) := by
  refine P.Le.bind (P.Le.on (le_read I S L mem msd h _ _)) fun a => ?_
  obtain ⟨a, _ | e⟩ := a
  · refine P.Le.bind (P.Le.on I.readMessageEnd) fun _ => P.Le.bind (P.Le.refl _) fun s => ?_
    refine P.Le.bind (P.Le.refl _) fun _ => ?_
    generalize (sv.handle m s.handler a).1.2 = e
    cases e
    · exact P.Le.bind (P.Le.on (le_sendReply O S h _ _ _)) fun _ => P.Le.refl _
    · exact P.Le.bind (P.Le.on (le_sendException O _ _ _)) fun _ => P.Le.refl _
  · exact P.Le.bind (P.Le.on I.readMessageEnd) fun _ => P.Le.bind (P.Le.on (le_sendException O _ _ _)) fun _ => P.Le.refl _

theorem le_processUnknown {n n' : Nat} (h : n ≤ n') (name : Bytes) (i : I32) :
    P.Le (processUnknown (η := η) ip op msd n name i) (processUnknown ip' op' msd n' name i) :=
  P.Le.bind (P.Le.on (le_skip I msd h _ _)) fun _ => P.Le.bind (P.Le.on I.readMessageEnd) fun _ =>
    P.Le.bind (P.Le.on (le_sendException O _ _ _)) fun _ => P.Le.refl _

/-- A processor with more fuel. -/
theorem le_process {n n' : Nat} (h : n ≤ n') (sv : Service η) :
    P.Le (process ip op S L mem msd n sv) (process ip' op' S L mem msd n' sv) := by
  refine P.Le.bind (P.Le.on I.readMessageBegin) fun a => P.Le.ite (P.Le.refl _) ?_
  split
  · exact le_processUnknown I O msd h _ _
  · exact le_processMethod I O S L mem msd h sv _ _

end
end Thrift
