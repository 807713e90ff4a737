import Verif.Lemmas.Run
import Verif.Spec.Failures
import Verif.Model.Service
import Verif.Model.Binary
import Verif.Model.Compact
/-!
# Programs that report the failures of the transport
-/

namespace Thrift

/-- All results of the program satisfy `Q`. -/
def Prog.All (Q : α → Prop) : Prog α → Prop
  | .ret a => Q a
  | .panic => True
  | .stuck => True
  | .readAll _ k => ∀ x, (k x).All Q
  | .write _ k => ∀ x, (k x).All Q
  | .flush k => ∀ x, (k x).All Q

/-- After a failed transport call all results of the program satisfy `bad`. -/
def Prog.Tells (bad : α → Prop) : Prog α → Prop
  | .ret _ => True
  | .panic => True
  | .stuck => True
  | .readAll _ k => ∀ x, (x.err.isSome = true → (k x).All bad) ∧ (k x).Tells bad
  | .write _ k => ∀ x, (x.2.isSome = true → (k x).All bad) ∧ (k x).Tells bad
  | .flush k => ∀ x, (x.isSome = true → (k x).All bad) ∧ (k x).Tells bad

theorem Prog.All.bind {p : Prog α} {f : α → Prog β} {Q : α → Prop} {R : β → Prop} (hp : p.All Q) (hf : ∀ a, Q a → (f a).All R) :
    (p.bind f).All R := by
  induction p with
  | ret a => exact hf a hp
  | panic => trivial
  | stuck => trivial
  | readAll n k ih => exact fun x => ih x (hp x)
  | write bs k ih => exact fun x => ih x (hp x)
  | flush k ih => exact fun x => ih x (hp x)

theorem Prog.All.top (p : Prog α) : p.All fun _ => True := by
  induction p with
  | ret a => trivial
  | panic => trivial
  | stuck => trivial
  | readAll n k ih => exact fun x => ih x
  | write bs k ih => exact fun x => ih x
  | flush k ih => exact fun x => ih x

theorem Prog.Tells.bind {p : Prog α} {f : α → Prog β} {bad : α → Prop} {bad' : β → Prop} (hp : p.Tells bad)
    (h1 : ∀ a, bad a → (f a).All bad') (h2 : ∀ a, (f a).Tells bad') : (p.bind f).Tells bad' := by
  induction p with
  | ret a => exact h2 a
  | panic => trivial
  | stuck => trivial
  | readAll n k ih => exact fun x => ⟨fun hx => ((hp x).1 hx).bind h1, ih x (hp x).2⟩
  | write bs k ih => exact fun x => ⟨fun hx => ((hp x).1 hx).bind h1, ih x (hp x).2⟩
  | flush k ih => exact fun x => ⟨fun hx => ((hp x).1 hx).bind h1, ih x (hp x).2⟩

theorem Prog.Tells.mono {p : Prog α} {bad bad' : α → Prop} (hp : p.Tells bad) (h : ∀ a, bad a → bad' a) : p.Tells bad' := by
  have := hp.bind (f := Prog.ret) (bad' := bad') h fun _ => trivial
  have hb : p.bind Prog.ret = p := by
    clear hp this
    induction p with
    | ret a => rfl
    | panic => rfl
    | stuck => rfl
    | readAll n k ih => exact congrArg _ (funext ih)
    | write n k ih => exact congrArg _ (funext ih)
    | flush k ih => exact congrArg _ (funext ih)
  rwa [hb] at this

theorem Prog.All.run {p : Prog α} {Q : α → Prop} (hp : p.All Q) (T : Transport σ) (t t' : σ) (a : α) (h : p.run T t = (.ok a, t')) : Q a := by
  induction p generalizing t with
  | ret b => simp only [Prog.run, Prod.mk.injEq, Res.ok.injEq] at h; exact h.1 ▸ hp
  | panic => simp [Prog.run] at h
  | stuck => simp [Prog.run] at h
  | readAll n k ih =>
    rw [Prog.run] at h
    split at h
    · exact ih _ (hp _) _ h
    · simp at h
    · simp at h
  | write bs k ih =>
    rw [Prog.run] at h
    split at h
    · exact ih _ (hp _) _ h
    · simp at h
    · simp at h
  | flush k ih =>
    rw [Prog.run] at h
    split at h
    · exact ih _ (hp _) _ h
    · simp at h
    · simp at h

/-- `ReadAll` over a watched transport. -/
theorem readAll_watched (T : Transport σ) (n : Nat) (t : σ) (x : ReadAllResult) (t' : σ) (f : Bool)
    (h : (watched T).readAll n (t, false) = (.ok x, (t', f))) (hx : x.err.isSome = false) : f = false := by
  have aux : ∀ (fuel : Nat) (got : Bytes) (err : GoErr) (t : σ),
      readAllLoop (watched T).read n fuel got err (t, false) = (.ok x, (t', f)) → f = false := by
    intro fuel
    induction fuel with
    | zero =>
      intro got err t h
      rw [readAllLoop] at h
      split at h
      · simp at h
      · simp only [Prod.mk.injEq] at h; exact h.2.2.symm
    | succ fuel ih =>
      intro got err t h
      rw [readAllLoop] at h
      split at h
      · have hr : (watched T).read (n - got.length) (t, false) = match T.read (n - got.length) t with
          | (.ok (bs, e), t) => (.ok (bs, e), (t, false || (bs.isEmpty && e.isSome)))
          | (.panic, t) => (.panic, (t, false))
          | (.stuck, t) => (.stuck, (t, false)) := rfl
        rw [hr] at h
        generalize T.read (n - got.length) t = r at h
        rcases r with ⟨⟨bs, e⟩ | _ | _, t1⟩
        · simp only [Bool.false_or] at h
          by_cases hb : bs.length = 0
          · rw [if_pos hb] at h
            simp only [Prod.mk.injEq, Res.ok.injEq] at h
            obtain ⟨rfl, -, rfl⟩ := h
            simp only at hx
            cases e with
            | none => simp
            | some e => simp at hx
          · rw [if_neg hb] at h
            have : bs.isEmpty = false := by cases bs with
              | nil => simp at hb
              | cons => rfl
            rw [this, Bool.false_and] at h
            exact ih _ _ _ h
        · simp at h
        · simp at h
      · simp only [Prod.mk.injEq] at h; exact h.2.2.symm
  exact aux _ _ _ _ h

theorem Prog.Tells.watch {p : Prog α} {bad : α → Prop} (hp : p.Tells bad) (T : Transport σ) (t t' : σ) (a : α) (f : Bool)
    (h : p.run (watched T) (t, false) = (.ok a, (t', f))) (ha : ¬ bad a) : f = false := by
  induction p generalizing t with
  | ret b => simp only [Prog.run, Prod.mk.injEq] at h; exact h.2.2.symm
  | panic => simp [Prog.run] at h
  | stuck => simp [Prog.run] at h
  | readAll n k ih =>
    rw [Prog.run] at h
    rcases hr : (watched T).readAll n (t, false) with ⟨x | _ | _, t1, f1⟩
    · rw [hr] at h
      simp only at h
      cases hx : x.err.isSome with
      | true => exact absurd (((hp x).1 hx).run _ _ _ _ h) ha
      | false =>
        rw [readAll_watched T n t x t1 f1 hr hx] at h
        exact ih _ (hp x).2 _ h
    · rw [hr] at h; simp at h
    · rw [hr] at h; simp at h
  | write bs k ih =>
    rw [Prog.run] at h
    have hr : (watched T).write bs (t, false) = match T.write bs t with
      | (.ok (n, e), t) => (.ok (n, e), (t, false || e.isSome))
      | (.panic, t) => (.panic, (t, false))
      | (.stuck, t) => (.stuck, (t, false)) := rfl
    rw [hr] at h
    generalize T.write bs t = r at h
    rcases r with ⟨⟨n, e⟩ | _ | _, t1⟩
    · simp only at h
      cases hx : e.isSome with
      | true => exact absurd (((hp (n, e)).1 hx).run _ _ _ _ h) ha
      | false => rw [hx] at h; exact ih _ (hp (n, e)).2 _ h
    · simp at h
    · simp at h
  | flush k ih =>
    rw [Prog.run] at h
    have hr : (watched T).flush (t, false) = match T.flush t with
      | (.ok e, t) => (.ok e, (t, false || e.isSome))
      | (.panic, t) => (.panic, (t, false))
      | (.stuck, t) => (.stuck, (t, false)) := rfl
    rw [hr] at h
    generalize T.flush t = r at h
    rcases r with ⟨e | _ | _, t1⟩
    · simp only at h
      cases hx : e.isSome with
      | true => exact absurd (((hp e).1 hx).run _ _ _ _ h) ha
      | false => rw [hx] at h; exact ih _ (hp e).2 _ h
    · simp at h
    · simp at h

/-! ## With an object state -/

/-- All results carry an error. -/
def P.Fails (err : α → GoErr) (m : P π α) : Prop := ∀ s, (m s).All fun a => (err a.1).isSome = true

/-- Failures of the transport are reported. -/
def P.Tells (err : α → GoErr) (m : P π α) : Prop := ∀ s, (m s).Tells fun a => (err a.1).isSome = true

theorem P.Tells.reported {err : α → GoErr} {m : P π α} (h : P.Tells err m) : Reported err m := by
  intro σ T s s' t t' a f hr ha
  refine (h s).watch T t t' (a, s') f hr ?_
  simp [ha]

/-- Programs without transport calls, and those whose calls need no report. -/
def P.Still (m : P π α) : Prop := ∀ s, (m s).Tells fun _ => False

theorem P.Still.tells {m : P π α} (h : P.Still m) (err : α → GoErr) : P.Tells err m := fun s => (h s).mono fun _ h => h.elim

namespace P.Fails
variable {err : β → GoErr}
theorem pure {b : β} (h : (err b).isSome = true) : Fails err (Pure.pure b : P π β) := fun _ => h
theorem bind {m : P π α} {f : α → P π β} (hf : ∀ a, Fails err (f a)) : Fails err (m >>= f) := fun s =>
  Prog.All.bind (Prog.All.top (m s)) fun a _ => hf a.1 a.2
theorem panic : Fails err (P.panic : P π β) := fun _ => trivial
theorem stuck : Fails err (P.stuck : P π β) := fun _ => trivial
end P.Fails

namespace P.Tells
variable {err : β → GoErr}
theorem pure (b : β) : Tells err (Pure.pure b : P π β) := fun _ => trivial
theorem panic : Tells err (P.panic : P π β) := fun _ => trivial
theorem stuck : Tells err (P.stuck : P π β) := fun _ => trivial
theorem ite {c : Prop} [Decidable c] {a b : P π β} (ha : Tells err a) (hb : Tells err b) : Tells err (if c then a else b) := by
  split <;> assumption
theorem bind {err' : α → GoErr} {m : P π α} {f : α → P π β} (hm : Tells err' m) (h1 : ∀ a, (err' a).isSome = true → Fails err (f a))
    (h2 : ∀ a, Tells err (f a)) : Tells err (m >>= f) := fun s =>
  Prog.Tells.bind (hm s) (fun a ha => h1 a.1 ha a.2) fun a => h2 a.1 a.2
theorem still {m : P π α} {f : α → P π β} (hm : P.Still m) (h2 : ∀ a, Tells err (f a)) : Tells err (m >>= f) := fun s =>
  Prog.Tells.bind (hm s) (fun _ ha => ha.elim) fun a => h2 a.1 a.2
theorem write (bs : Bytes) : Tells (·.2) (P.write bs : P π _) := fun _ _ => ⟨fun h => h, trivial⟩
theorem readAll (n : Nat) : Tells (·.err) (P.readAll n : P π _) := fun _ _ => ⟨fun h => h, trivial⟩
theorem flush : Tells id (P.tflush : P π _) := fun _ _ => ⟨fun h => h, trivial⟩
end P.Tells

namespace P.Still
theorem pure (b : β) : Still (Pure.pure b : P π β) := fun _ => trivial
theorem get : Still (P.get : P π π) := fun _ => trivial
theorem modify (f : π → π) : Still (P.modify f) := fun _ => trivial
theorem panic : Still (P.panic : P π α) := fun _ => trivial
theorem ofRes (r : Res α) : Still (P.ofRes r : P π α) := by cases r <;> exact fun _ => trivial
end P.Still

theorem fromOs_isSome {e : GoErr} (h : e.isSome = true) : (protocolFromOsError e).isSome = true := by
  cases e with
  | none => exact absurd h (by decide)
  | some e => simp only [protocolFromOsError]; split <;> rfl

theorem map_isSome {e : GoErr} (w : Err → Err) (h : e.isSome = true) : (e.map w).isSome = true := by
  cases e with
  | none => exact absurd h (by decide)
  | some e => rfl

theorem P.Tells.wrap {m : P π GoErr} (w : Err → Err) (h : P.Tells id m) : P.Tells id (wrapErr w m) :=
  P.Tells.bind h (fun _ ha => P.Fails.pure (map_isSome w ha)) fun _ => P.Tells.pure _

theorem P.Tells.fromOs {m : P π GoErr} (h : P.Tells id m) : P.Tells id (do return protocolFromOsError (← m)) :=
  P.Tells.bind h (fun _ ha => P.Fails.pure (fromOs_isSome ha)) fun _ => P.Tells.pure _

/-- The step `e ← m; if e ≠ nil { return e }; k`. -/
theorem P.Tells.check {m k : P π GoErr} (hm : P.Tells id m) (hk : P.Tells id k) :
    P.Tells id (m >>= fun e => if e.isSome = true then Pure.pure e else k) := by
  refine P.Tells.bind hm (fun e he => ?_) fun e => ?_
  · show P.Fails id (if e.isSome = true then _ else _)
    rw [if_pos (show e.isSome = true from he)]
    exact P.Fails.pure he
  · exact P.Tells.ite (P.Tells.pure _) hk

/-! ## Write methods -/

/-- Every write method of a protocol reports the failures it meets. -/
structure Proto.Tells (p : Proto π) : Prop where
  messageBegin : ∀ a b c, P.Tells id (p.writeMessageBegin a b c)
  messageEnd : P.Tells id p.writeMessageEnd
  structBegin : ∀ a, P.Tells id (p.writeStructBegin a)
  structEnd : P.Tells id p.writeStructEnd
  fieldBegin : ∀ a b c, P.Tells id (p.writeFieldBegin a b c)
  fieldEnd : P.Tells id p.writeFieldEnd
  fieldStop : P.Tells id p.writeFieldStop
  mapBegin : ∀ a b c, P.Tells id (p.writeMapBegin a b c)
  mapEnd : P.Tells id p.writeMapEnd
  listBegin : ∀ a b, P.Tells id (p.writeListBegin a b)
  listEnd : P.Tells id p.writeListEnd
  setBegin : ∀ a b, P.Tells id (p.writeSetBegin a b)
  setEnd : P.Tells id p.writeSetEnd
  bool : ∀ a, P.Tells id (p.writeBool a)
  byte : ∀ a, P.Tells id (p.writeByte a)
  i16 : ∀ a, P.Tells id (p.writeI16 a)
  i32 : ∀ a, P.Tells id (p.writeI32 a)
  i64 : ∀ a, P.Tells id (p.writeI64 a)
  double : ∀ a, P.Tells id (p.writeDouble a)
  string : ∀ a, P.Tells id (p.writeString a)
  binary : ∀ a, P.Tells id (p.writeBinary a)
  flush : P.Tells id p.flush

section binary
open BinaryProtocol

theorem Bin.t_raw (bs : Bytes) : P.Tells id (rawWrite bs) := by
  unfold rawWrite
  exact P.Tells.bind (P.Tells.write bs) (fun _ h => P.Fails.pure (fromOs_isSome h)) fun _ => P.Tells.pure _

theorem Bin.t_copy (bs : Bytes) : P.Tells id (copyN bs) := by
  unfold copyN
  refine P.Tells.ite (P.Tells.pure _) (P.Tells.bind (P.Tells.write bs) (fun x h => ?_) fun x => ?_)
  · show P.Fails id (if x.2.isSome = true then _ else _)
    rw [if_pos h]
    exact P.Fails.pure h
  · exact P.Tells.ite (P.Tells.pure _) (P.Tells.ite (P.Tells.pure _) (P.Tells.pure _))

theorem Bin.t_string (a : Bytes) : P.Tells id (writeString a) := P.Tells.check (Bin.t_raw _) (P.Tells.fromOs (Bin.t_copy _))
theorem Bin.t_list (a : TType) (n : Int) : P.Tells id (writeListBegin a n) := P.Tells.check (Bin.t_raw _) (Bin.t_raw _)

theorem binary_tells : binary.Tells where
  messageBegin a b c := by
    show P.Tells id (writeMessageBegin a b c)
    unfold writeMessageBegin
    refine P.Tells.still P.Still.get fun s => P.Tells.ite ?_ ?_
    · exact P.Tells.check (Bin.t_raw _) (P.Tells.check (Bin.t_string _) (Bin.t_raw _))
    · exact P.Tells.check (Bin.t_string _) (P.Tells.check (Bin.t_raw _) (Bin.t_raw _))
  messageEnd := .pure _
  structBegin _ := .pure _
  structEnd := .pure _
  fieldBegin _ _ _ := P.Tells.check (Bin.t_raw _) (Bin.t_raw _)
  fieldEnd := .pure _
  fieldStop := Bin.t_raw _
  mapBegin _ _ _ := P.Tells.check (Bin.t_raw _) (P.Tells.check (Bin.t_raw _) (Bin.t_raw _))
  mapEnd := .pure _
  listBegin := Bin.t_list
  listEnd := .pure _
  setBegin := Bin.t_list
  setEnd := .pure _
  bool _ := P.Tells.ite (Bin.t_raw _) (Bin.t_raw _)
  byte _ := Bin.t_raw _
  i16 _ := Bin.t_raw _
  i32 _ := Bin.t_raw _
  i64 _ := Bin.t_raw _
  double _ := Bin.t_raw _
  string := Bin.t_string
  binary _ := P.Tells.check (Bin.t_raw _) (Bin.t_raw _)
  flush := P.Tells.bind P.Tells.flush (fun _ h => P.Fails.pure (fromOs_isSome h)) fun _ => P.Tells.pure _

end binary

section compact
open CompactProtocol

theorem Cmp.t_byte (b : Byte) : P.Tells (·.2) (writeByteDirect b) := P.Tells.write _

theorem Cmp.t_var32 (n : I32) : P.Tells (·.2) (writeVarint32 n) := by
  unfold writeVarint32
  split
  · exact P.Tells.write _
  · exact P.Tells.panic

theorem Cmp.t_var64 (n : I64) : P.Tells (·.2) (writeVarint64 n) := by
  unfold writeVarint64
  split
  · exact P.Tells.write _
  · exact P.Tells.panic

/-- `_, err := m; return NewTProtocolExceptionFromOsError(err)`. -/
theorem Cmp.t_last {m : P Cmp (Nat × GoErr)} (h : P.Tells (·.2) m) : P.Tells id (do let (_, err) ← m; return protocolFromOsError err) :=
  P.Tells.bind h (fun _ h => P.Fails.pure (fromOs_isSome h)) fun _ => P.Tells.pure _

/-- `_, err := m; if err != nil { return f(err) }; k`. -/
theorem Cmp.t_check {m : P Cmp (Nat × GoErr)} {k : P Cmp GoErr} (f : GoErr → GoErr) (hf : ∀ e : GoErr, e.isSome = true → (f e).isSome = true)
    (h : P.Tells (·.2) m) (hk : P.Tells id k) : P.Tells id (m >>= fun x => if x.2.isSome = true then pure (f x.2) else k) := by
  refine P.Tells.bind h (fun x hx => ?_) fun x => ?_
  · show P.Fails id (if x.2.isSome = true then _ else _)
    rw [if_pos hx]
    exact P.Fails.pure (hf _ hx)
  · exact P.Tells.ite (P.Tells.pure _) hk

theorem Cmp.t_binary (a : Bytes) : P.Tells id (writeBinary a) :=
  Cmp.t_check _ (fun _ => fromOs_isSome) (Cmp.t_var32 _) (P.Tells.ite (Cmp.t_last (P.Tells.write _)) (P.Tells.pure _))

theorem Cmp.still_type (t : TType) : P.Still (getCompactType t) := by
  unfold getCompactType
  split
  · exact P.Still.pure _
  · exact P.Still.panic

theorem Cmp.t_field (t : TType) (id : I16) (o : Option Byte) : P.Tells _root_.id (writeFieldBeginInternal t id o) := by
  unfold writeFieldBeginInternal
  cases o with
  | none =>
    refine P.Tells.still (Cmp.still_type t) fun b => P.Tells.still P.Still.get fun s => ?_
    dsimp only
    split
    · exact Cmp.t_check _root_.id (fun _ h => h) (Cmp.t_byte _) (P.Tells.still (P.Still.modify _) fun _ => P.Tells.pure _)
    · exact Cmp.t_check _root_.id (fun _ h => h) (Cmp.t_byte _) (P.Tells.check (Cmp.t_last (Cmp.t_var32 _))
        (P.Tells.still (P.Still.modify _) fun _ => P.Tells.pure _))
  | some b =>
    refine P.Tells.still (P.Still.pure b) fun b => P.Tells.still P.Still.get fun s => ?_
    dsimp only
    split
    · exact Cmp.t_check _root_.id (fun _ h => h) (Cmp.t_byte _) (P.Tells.still (P.Still.modify _) fun _ => P.Tells.pure _)
    · exact Cmp.t_check _root_.id (fun _ h => h) (Cmp.t_byte _) (P.Tells.check (Cmp.t_last (Cmp.t_var32 _))
        (P.Tells.still (P.Still.modify _) fun _ => P.Tells.pure _))

theorem Cmp.t_collection (t : TType) (n : Int) : P.Tells id (writeListBegin t n) := by
  refine P.Tells.fromOs ?_
  unfold writeCollectionBegin
  refine P.Tells.ite (P.Tells.still (Cmp.still_type t) fun _ => ?_) (P.Tells.still (Cmp.still_type t) fun _ => ?_)
  · exact P.Tells.bind (Cmp.t_byte _) (fun _ h => P.Fails.pure h) fun _ => P.Tells.pure _
  · exact Cmp.t_check id (fun _ h => h) (Cmp.t_byte _)
      (P.Tells.bind (Cmp.t_var32 _) (fun _ h => P.Fails.pure h) fun _ => P.Tells.pure _)

theorem compact_tells (f : Nat) : (compact f).Tells where
  messageBegin _ _ _ := Cmp.t_check _ (fun _ => fromOs_isSome) (Cmp.t_byte _) (Cmp.t_check _ (fun _ => fromOs_isSome) (Cmp.t_byte _)
    (Cmp.t_check _ (fun _ => fromOs_isSome) (Cmp.t_var32 _) (Cmp.t_binary _)))
  messageEnd := .pure _
  structBegin _ := P.Tells.still (P.Still.modify _) fun _ => P.Tells.pure _
  structEnd := by
    refine P.Tells.still P.Still.get fun s => ?_
    show P.Tells id (match s.lastField with
      | [] => P.panic
      | top :: rest => _)
    split
    · exact P.Tells.panic
    · exact P.Tells.still (P.Still.modify _) fun _ => P.Tells.pure _
  fieldBegin _ t i := P.Tells.ite (P.Tells.still (P.Still.modify _) fun _ => P.Tells.pure _) (P.Tells.fromOs (Cmp.t_field _ _ _))
  fieldEnd := .pure _
  fieldStop := Cmp.t_last (Cmp.t_byte _)
  mapBegin k v n := P.Tells.ite (Cmp.t_last (Cmp.t_byte _)) (Cmp.t_check _ (fun _ => fromOs_isSome) (Cmp.t_var32 _)
    (P.Tells.still (Cmp.still_type _) fun _ => P.Tells.still (Cmp.still_type _) fun _ => Cmp.t_last (Cmp.t_byte _)))
  mapEnd := .pure _
  listBegin := Cmp.t_collection
  listEnd := .pure _
  setBegin := Cmp.t_collection
  setEnd := .pure _
  bool v := by
    refine P.Tells.still P.Still.get fun s => ?_
    rcases s.booleanField with _ | ⟨_, t, i⟩
    · exact Cmp.t_last (Cmp.t_byte _)
    · exact P.Tells.bind (Cmp.t_field _ _ _) (fun _ h => P.Fails.bind fun _ => P.Fails.pure (fromOs_isSome h)) fun _ =>
        P.Tells.still (P.Still.modify _) fun _ => P.Tells.pure _
  byte _ := Cmp.t_last (Cmp.t_byte _)
  i16 _ := Cmp.t_last (Cmp.t_var32 _)
  i32 _ := Cmp.t_last (Cmp.t_var32 _)
  i64 _ := Cmp.t_last (Cmp.t_var64 _)
  double _ := Cmp.t_last (P.Tells.write _)
  string := Cmp.t_binary
  binary := Cmp.t_binary
  flush := P.Tells.bind P.Tells.flush (fun _ h => P.Fails.pure (fromOs_isSome h)) fun _ => P.Tells.pure _

end compact

/-! ## Read methods -/

section step
variable {err : β → GoErr} {m : P π (α × GoErr)}
theorem P.Tells.step {k : α × GoErr → P π β} {r : α × GoErr → β} (hm : P.Tells (·.2) m)
    (hr : ∀ x, x.2.isSome = true → (err (r x)).isSome = true) (hk : ∀ x, P.Tells err (k x)) :
    P.Tells err (m >>= fun x => if x.2.isSome = true then Pure.pure (r x) else k x) := by
  refine P.Tells.bind hm (fun x hx => ?_) fun x => P.Tells.ite (P.Tells.pure _) (hk x)
  rw [if_pos hx]
  exact P.Fails.pure (hr x hx)
theorem P.Tells.last {r : α × GoErr → β} (hm : P.Tells (·.2) m) (hr : ∀ x, x.2.isSome = true → (err (r x)).isSome = true) :
    P.Tells err (m >>= fun x => Pure.pure (r x)) := P.Tells.bind hm (fun x hx => P.Fails.pure (hr x hx)) fun _ => P.Tells.pure _
end step

section
open BinaryProtocol

theorem Bin.still_check (n : Int) : P.Still (BinaryProtocol.checkReadLength n) := by
  intro s
  show Prog.Tells _ ((BinaryProtocol.checkReadLength n) s)
  simp only [BinaryProtocol.checkReadLength]
  show Prog.Tells _ ((if s.checkReadLength = true then _ else _ : P Bin GoErr) s)
  split
  · show Prog.Tells _ ((if s.readLength - n < 0 then _ else _ : P Bin GoErr) _)
    split <;> exact trivial
  · exact trivial

theorem Bin.t_buf (n : Nat) : P.Tells (·.2) (readAllBuf n) :=
  P.Tells.still (Bin.still_check _) fun _ => P.Tells.ite (P.Tells.pure _)
    (P.Tells.bind (P.Tells.readAll _) (fun _ h => P.Fails.pure (fromOs_isSome h)) fun _ => P.Tells.pure _)

theorem Bin.t_r8 : P.Tells (·.2) readByte := P.Tells.last (Bin.t_buf _) fun _ h => h
theorem Bin.t_r16 : P.Tells (·.2) readI16 := P.Tells.last (Bin.t_buf _) fun _ h => h
theorem Bin.t_r32 : P.Tells (·.2) readI32 := P.Tells.last (Bin.t_buf _) fun _ h => h

theorem Bin.t_body (n : Int) : P.Tells (·.2) (readStringBody n) :=
  P.Tells.ite (P.Tells.pure _) (P.Tells.still (Bin.still_check _) fun _ => P.Tells.ite (P.Tells.pure _)
    (P.Tells.bind (P.Tells.readAll _) (fun _ h => P.Fails.pure (fromOs_isSome h)) fun _ => P.Tells.pure _))

theorem Bin.t_rstring : P.Tells (·.2) readString := P.Tells.step Bin.t_r32 (fun _ h => h) fun _ => Bin.t_body _

theorem Bin.t_rbinary : P.Tells (·.2) readBinary :=
  P.Tells.step Bin.t_r32 (fun _ h => h) fun _ => P.Tells.still (Bin.still_check _) fun _ => P.Tells.ite (P.Tells.pure _)
    (P.Tells.ite P.Tells.panic
      (P.Tells.bind (P.Tells.readAll _) (fun _ h => P.Fails.pure (fromOs_isSome h)) fun _ => P.Tells.pure _))

theorem Bin.t_rlist : P.Tells (·.2) readListBegin :=
  P.Tells.step Bin.t_r8 (fun _ => fromOs_isSome) fun _ => P.Tells.step Bin.t_r32 (fun _ => fromOs_isSome) fun _ => P.Tells.pure _

theorem binary_fetch (c : FetchCall) : P.Tells id (binary.fetch c) := by
  cases c
  case messageBegin =>
    refine P.Tells.last (P.Tells.step Bin.t_r32 (fun _ => fromOs_isSome) fun x => P.Tells.ite (P.Tells.ite (P.Tells.pure _) ?_) ?_) fun _ h => h
    · exact P.Tells.step Bin.t_rstring (fun _ => fromOs_isSome) fun _ => P.Tells.step Bin.t_r32 (fun _ => fromOs_isSome) fun _ => P.Tells.pure _
    · exact P.Tells.still P.Still.get fun _ => P.Tells.ite (P.Tells.pure _) (P.Tells.step (Bin.t_body _) (fun _ h => h) fun _ =>
        P.Tells.step Bin.t_r8 (fun _ h => h) fun _ => P.Tells.step Bin.t_r32 (fun _ h => h) fun _ => P.Tells.pure _)
  case fieldBegin =>
    exact P.Tells.last (P.Tells.step Bin.t_r8 (fun _ h => h) fun _ => P.Tells.ite (P.Tells.last Bin.t_r16 fun _ h => h) (P.Tells.pure _))
      fun _ h => h
  case mapBegin =>
    exact P.Tells.last (P.Tells.step Bin.t_r8 (fun _ => fromOs_isSome) fun _ => P.Tells.step Bin.t_r8 (fun _ => fromOs_isSome) fun _ =>
      P.Tells.step Bin.t_r32 (fun _ => fromOs_isSome) fun _ => P.Tells.pure _) fun _ h => h
  case listBegin => exact P.Tells.last Bin.t_rlist fun _ h => h
  case setBegin => exact P.Tells.last Bin.t_rlist fun _ h => h
  case bool => exact P.Tells.last (P.Tells.last Bin.t_r8 fun _ h => h) fun _ h => h
  case byte => exact P.Tells.last Bin.t_r8 fun _ h => h
  case i16 => exact P.Tells.last Bin.t_r16 fun _ h => h
  case i32 => exact P.Tells.last Bin.t_r32 fun _ h => h
  case i64 => exact P.Tells.last (P.Tells.last (Bin.t_buf _) fun _ h => h) fun _ h => h
  case double => exact P.Tells.last (P.Tells.last (Bin.t_buf _) fun _ h => h) fun _ h => h
  case string => exact P.Tells.last Bin.t_rstring fun _ h => h
  case binary => exact P.Tells.last Bin.t_rbinary fun _ h => h
  all_goals exact P.Tells.pure _

end

section
open CompactProtocol

theorem Cmp.t_r8 : P.Tells (·.2) readByte := by
  refine P.Tells.bind (P.Tells.readAll _) (fun x hx => ?_) fun _ => P.Tells.ite (P.Tells.pure _) (P.Tells.pure _)
  show P.Fails _ (if x.err.isSome = true then _ else _)
  rw [if_pos hx]
  exact P.Fails.pure (fromOs_isSome hx)

theorem Cmp.t_loop : ∀ fuel shift r, P.Tells (·.2) (readVarint64Loop fuel shift r)
  | 0, _, _ => P.Tells.stuck
  | fuel + 1, _, _ => P.Tells.step Cmp.t_r8 (fun _ h => h) fun _ => P.Tells.ite (P.Tells.pure _) (Cmp.t_loop fuel _ _)

theorem Cmp.t_rv64 (f : Nat) : P.Tells (·.2) (readVarint64 f) := Cmp.t_loop _ _ _
theorem Cmp.t_rv32 (f : Nat) : P.Tells (·.2) (readVarint32 f) := P.Tells.last (Cmp.t_rv64 f) fun _ h => h
theorem Cmp.t_r32 (f : Nat) : P.Tells (·.2) (readI32 f) := P.Tells.step (Cmp.t_rv32 f) (fun _ => fromOs_isSome) fun _ => P.Tells.pure _
theorem Cmp.t_r16 (f : Nat) : P.Tells (·.2) (readI16 f) := P.Tells.last (Cmp.t_r32 f) fun _ h => h

end

/-! ## Generated writers -/

section gen
variable {p : Proto π} {S : Schema}

theorem tells_elems {wr : Dyn → P π GoErr} (h : ∀ d, P.Tells id (wr d)) : ∀ ds, P.Tells id (genWriteElems wr ds)
  | [] => .pure _
  | d :: ds => P.Tells.check (h d) (tells_elems h ds)

theorem tells_entries {wk wv : Dyn → P π GoErr} (h : ∀ d, P.Tells id (wk d)) (h' : ∀ d, P.Tells id (wv d)) :
    ∀ ds, P.Tells id (genWriteEntries wk wv ds)
  | [] => .pure _
  | (k, v) :: ds => P.Tells.check (h k) (P.Tells.check (h' v) (tells_entries h h' ds))

theorem Proto.Tells.member (H : p.Tells) {wr : Bytes → Bytes → Ty → Dyn → P π GoErr} (h : ∀ a b t d, P.Tells id (wr a b t d))
    (sd : StructDef) (attrs : List (Int × Dyn)) (m : Member) : P.Tells id (genWriteMember p S wr sd attrs m) := by
  unfold genWriteMember
  exact P.Tells.ite (P.Tells.check (P.Tells.wrap _ (H.fieldBegin _ _ _)) (P.Tells.check (h _ _ _ _) (P.Tells.wrap _ H.fieldEnd)))
    (P.Tells.pure _)

theorem Proto.Tells.members (H : p.Tells) {wr : Bytes → Bytes → Ty → Dyn → P π GoErr} (h : ∀ a b t d, P.Tells id (wr a b t d))
    (sd : StructDef) (attrs : List (Int × Dyn)) : ∀ ms, P.Tells id (genWriteMembers p S wr sd attrs ms)
  | [] => .pure _
  | m :: ms => P.Tells.check (H.member h sd attrs m) (Proto.Tells.members H h sd attrs ms)

theorem Proto.Tells.body (H : p.Tells) (sd : StructDef) {f : P π GoErr} (h : P.Tells id f) : P.Tells id (genWriteBody p sd f) :=
  P.Tells.check (P.Tells.wrap _ (H.structBegin _)) (P.Tells.check h
    (P.Tells.check (P.Tells.wrap _ H.fieldStop) (P.Tells.wrap _ H.structEnd)))

theorem Proto.Tells.val (H : p.Tells) : ∀ fuel fn sn ty d, P.Tells id (genWriteVal p S fuel fn sn ty d)
  | 0, _, _, _, _ => .stuck
  | fuel + 1, fn, sn, ty, d => by
    have ih := Proto.Tells.val H fuel
    unfold genWriteVal
    split
    · exact .wrap _ (H.bool _)
    · exact .wrap _ (H.byte _)
    · exact .wrap _ (H.i16 _)
    · exact .wrap _ (H.i32 _)
    · exact .wrap _ (H.i64 _)
    · exact .wrap _ (H.double _)
    · exact .wrap _ (H.string _)
    · exact .wrap _ (H.binary _)
    · exact .ite (.wrap _ (H.i32 _)) .panic
    · exact .ite (.wrap _ (H.body _ (H.members ih _ _ _))) .panic
    · exact .check (.wrap _ (H.listBegin _ _)) (.check (tells_elems (ih _ _ _) _) (.wrap _ H.listEnd))
    · exact .check (.wrap _ (H.setBegin _ _)) (.check (tells_elems (ih _ _ _) _) (.wrap _ H.setEnd))
    · refine .check (.wrap _ (H.mapBegin _ _ _)) ?_
      split
      · exact .panic
      · exact .check (tells_entries (ih _ _ _) (ih _ _ _) _) (.wrap _ H.mapEnd)
    · exact .panic

theorem Proto.Tells.write (H : p.Tells) (fuel : Nat) (sd : StructDef) (attrs : List (Int × Dyn)) :
    P.Tells id (genWrite p S fuel sd attrs) := H.body sd (H.members (H.val fuel) _ _ _)

theorem Proto.Tells.result (H : p.Tells) (fuel : Nat) (sd : StructDef) (attrs : List (Int × Dyn)) :
    P.Tells id (genWriteResult p S fuel sd attrs) := by
  refine H.body sd ?_
  split
  · exact H.member (H.val fuel) _ _ _
  · exact .pure _

theorem Proto.Tells.appType (H : p.Tells) (x : AppExc) : P.Tells id (appWriteType p x) :=
  .check (H.fieldBegin _ _ _) (.check (H.i32 _) (.check H.fieldEnd (.check H.fieldStop H.structEnd)))

theorem Proto.Tells.app (H : p.Tells) (hs : ∀ a, P.Still (p.writeStructBegin a)) (x : AppExc) : P.Tells id (appWrite p x) :=
  .still (hs _) fun _ => .ite (.check (H.fieldBegin _ _ _) (.check (H.string _) (.check H.fieldEnd (H.appType x)))) (H.appType x)

end gen

/-! ## Broken connections -/

/-- The program returns no result outside `bad` before it has written. -/
def Prog.Writes (bad : α → Prop) : Prog α → Prop
  | .ret a => bad a
  | .panic => True
  | .stuck => True
  | .readAll _ k => ∀ x, (k x).Writes bad
  | .write _ _ => True
  | .flush k => ∀ x, (k x).Writes bad

theorem Prog.Writes.bind {p : Prog α} {f : α → Prog β} {bad : α → Prop} {bad' : β → Prop} (hp : p.Writes bad)
    (h : ∀ a, bad a → (f a).Writes bad') : (p.bind f).Writes bad' := by
  induction p with
  | ret a => exact h a hp
  | panic => trivial
  | stuck => trivial
  | readAll n k ih => exact fun x => ih x (hp x)
  | write bs k ih => trivial
  | flush k ih => exact fun x => ih x (hp x)

theorem Prog.Writes.top (p : Prog α) : p.Writes fun _ => True := by
  induction p with
  | ret a => trivial
  | panic => trivial
  | stuck => trivial
  | readAll n k ih => exact fun x => ih x
  | write bs k ih => trivial
  | flush k ih => exact fun x => ih x

def P.Writes (err : α → GoErr) (m : P π α) : Prop := ∀ s, (m s).Writes fun a => (err a.1).isSome = true

theorem P.Writes.check {m k : P π GoErr} (hk : P.Writes id k) : P.Writes id (m >>= fun e => if e.isSome = true then Pure.pure e else k) := by
  intro s
  refine Prog.Writes.bind (Prog.Writes.top (m s)) fun a _ => ?_
  show Prog.Writes _ ((if a.1.isSome = true then _ else _ : P π GoErr) _)
  split
  · assumption
  · exact hk _

theorem P.Writes.first {m k : P π GoErr} (hm : P.Writes id m) : P.Writes id (m >>= fun e => if e.isSome = true then Pure.pure e else k) := by
  intro s
  refine Prog.Writes.bind (hm s) fun a ha => ?_
  show Prog.Writes _ ((if a.1.isSome = true then _ else _ : P π GoErr) _)
  rw [if_pos (show a.1.isSome = true from ha)]
  exact ha

theorem P.Writes.wrap {m : P π GoErr} (w : Err → Err) (h : P.Writes id m) : P.Writes id (wrapErr w m) := fun s =>
  Prog.Writes.bind (h s) fun _ ha => map_isSome w ha

theorem genWrite_writes {p : Proto π} {S : Schema} (h : P.Writes id p.writeFieldStop) (fuel : Nat) (sd : StructDef) (a : List (Int × Dyn)) :
    P.Writes id (genWrite p S fuel sd a) :=
  P.Writes.check (P.Writes.check (P.Writes.first (P.Writes.wrap _ h)))

section sticky
variable {T : Transport σ} {broken : σ → Prop}

theorem Sticky.loop (K : Sticky T broken) (n : Nat) : ∀ (fuel : Nat) (got : Bytes) (err : GoErr) (x : σ × Bool),
    (x.2 = true → broken x.1) → (readAllLoop (watched T).read n fuel got err x).2.2 = true →
      broken (readAllLoop (watched T).read n fuel got err x).2.1 := by
  intro fuel
  induction fuel with
  | zero =>
    intro got err x hx
    rw [readAllLoop]
    split <;> exact hx
  | succ fuel ih =>
    intro got err x hx
    rw [readAllLoop]
    split
    · have h1 := K.read (n - got.length) x.1
      have h2 := K.afterRead (n - got.length) x.1
      have hr : (watched T).read (n - got.length) x = match T.read (n - got.length) x.1 with
          | (.ok (bs, e), t) => (.ok (bs, e), (t, x.2 || (bs.isEmpty && e.isSome)))
          | (.panic, t) => (.panic, (t, x.2))
          | (.stuck, t) => (.stuck, (t, x.2)) := rfl
      rw [hr]
      generalize T.read (n - got.length) x.1 = r at h1 h2 ⊢
      have hx' : x.2 = true → broken r.2 := fun h => h2 (hx h)
      rcases r with ⟨⟨bs, e⟩ | _ | _, t1⟩
      · have key : (x.2 || (bs.isEmpty && e.isSome)) = true → broken t1 := by
          intro h
          rw [Bool.or_eq_true] at h
          rcases h with h | h
          · exact hx' h
          · rw [Bool.and_eq_true] at h
            cases e with
            | none => exact absurd h.2 (by decide)
            | some e =>
              cases bs with
              | nil => exact h1 e rfl
              | cons => exact absurd h.1 (by simp)
        dsimp only
        split
        · exact key
        · exact ih _ _ _ key
      · exact hx'
      · exact hx'
    · exact hx

/-- Whatever has failed on a sticky connection has broken it. -/
theorem Sticky.run (K : Sticky T broken) (p : Prog α) (x : σ × Bool) (hx : x.2 = true → broken x.1)
    (h : (p.run (watched T) x).2.2 = true) : broken (p.run (watched T) x).2.1 := by
  induction p generalizing x with
  | ret a => exact hx h
  | panic => exact hx h
  | stuck => exact hx h
  | readAll n k ih =>
    rw [Prog.run] at h ⊢
    have h1 := K.loop n n [] none x hx
    change ((watched T).readAll n x).2.2 = true → broken ((watched T).readAll n x).2.1 at h1
    generalize (watched T).readAll n x = r at h h1 ⊢
    rcases r with ⟨a | _ | _, y⟩
    · exact ih _ y h1 h
    · exact h1 h
    · exact h1 h
  | write bs k ih =>
    rw [Prog.run] at h ⊢
    have h1 := K.write bs x.1
    have h2 := K.afterWrite bs x.1
    have hr : (watched T).write bs x = match T.write bs x.1 with
      | (.ok (n, e), t) => (.ok (n, e), (t, x.2 || e.isSome))
      | (.panic, t) => (.panic, (t, x.2))
      | (.stuck, t) => (.stuck, (t, x.2)) := rfl
    rw [hr] at h ⊢
    generalize T.write bs x.1 = r at h h1 h2 ⊢
    have hx' : x.2 = true → broken r.2 := fun h => h2 (hx h)
    rcases r with ⟨⟨n, e⟩ | _ | _, t1⟩
    · refine ih _ _ ?_ h
      intro h
      rw [Bool.or_eq_true] at h
      rcases h with h | h
      · exact hx' h
      · cases e with
        | none => exact absurd h (by decide)
        | some e => exact h1 n e rfl
    · exact hx' h
    · exact hx' h
  | flush k ih =>
    rw [Prog.run] at h ⊢
    have h1 := K.flush x.1
    have h2 := K.afterFlush x.1
    have hr : (watched T).flush x = match T.flush x.1 with
      | (.ok e, t) => (.ok e, (t, x.2 || e.isSome))
      | (.panic, t) => (.panic, (t, x.2))
      | (.stuck, t) => (.stuck, (t, x.2)) := rfl
    rw [hr] at h ⊢
    generalize T.flush x.1 = r at h h1 h2 ⊢
    have hx' : x.2 = true → broken r.2 := fun h => h2 (hx h)
    rcases r with ⟨e | _ | _, t1⟩
    · refine ih _ _ ?_ h
      intro h
      rw [Bool.or_eq_true] at h
      rcases h with h | h
      · exact hx' h
      · cases e with
        | none => exact absurd h (by decide)
        | some e => exact h1 e rfl
    · exact hx' h
    · exact hx' h

theorem Sticky.readAll (K : Sticky T broken) (n : Nat) (t : σ) (ht : broken t) : broken (T.readAll n t).2 := by
  have aux : ∀ (fuel : Nat) (got : Bytes) (err : GoErr) (t : σ), broken t → broken (readAllLoop T.read n fuel got err t).2 := by
    intro fuel
    induction fuel with
    | zero =>
      intro got err t ht
      rw [readAllLoop]
      split <;> exact ht
    | succ fuel ih =>
      intro got err t ht
      rw [readAllLoop]
      split
      · have h2 := K.afterRead (n - got.length) t ht
        generalize T.read (n - got.length) t = r at h2 ⊢
        rcases r with ⟨⟨bs, e⟩ | _ | _, t1⟩
        · dsimp only
          split
          · exact h2
          · exact ih _ _ _ h2
        · exact h2
        · exact h2
      · exact ht
  exact aux _ _ _ _ ht

/-- A program that writes and reports failures cannot succeed on a broken connection. -/
theorem Sticky.fails (K : Sticky T broken) {p : Prog α} {bad : α → Prop} (hw : p.Writes bad) (ht : p.Tells bad) (t t' : σ) (a : α)
    (hb : broken t) (h : p.run T t = (.ok a, t')) : bad a := by
  induction p generalizing t with
  | ret b => simp only [Prog.run, Prod.mk.injEq, Res.ok.injEq] at h; exact h.1 ▸ hw
  | panic => simp [Prog.run] at h
  | stuck => simp [Prog.run] at h
  | readAll n k ih =>
    rw [Prog.run] at h
    have h1 := K.readAll n t hb
    generalize T.readAll n t = r at h h1
    rcases r with ⟨x | _ | _, y⟩
    · exact ih x (hw x) (ht x).2 y h1 h
    · simp at h
    · simp at h
  | write bs k ih =>
    rw [Prog.run] at h
    obtain ⟨n, e, h1⟩ := K.dead bs t hb
    generalize T.write bs t = r at h h1
    obtain ⟨r, y⟩ := r
    cases h1
    exact ((ht (n, some e)).1 rfl).run T y t' a h
  | flush k ih =>
    rw [Prog.run] at h
    have h1 := K.afterFlush t hb
    generalize T.flush t = r at h h1
    rcases r with ⟨x | _ | _, y⟩
    · exact ih x (hw x) (ht x).2 y h1 h
    · simp at h
    · simp at h

/-- The watched connection is broken when the connection is. -/
theorem Sticky.watched (K : Sticky T broken) : Sticky (Thrift.watched T) fun x => broken x.1 where
  read n s e h := by
    have h1 := K.read n s.1 e
    have hr : (Thrift.watched T).read n s = match T.read n s.1 with
      | (.ok (bs, e), t) => (.ok (bs, e), (t, s.2 || (bs.isEmpty && e.isSome)))
      | (.panic, t) => (.panic, (t, s.2))
      | (.stuck, t) => (.stuck, (t, s.2)) := rfl
    rw [hr] at h ⊢
    generalize T.read n s.1 = r at h h1 ⊢
    rcases r with ⟨⟨bs, e⟩ | _ | _, t1⟩ <;> exact h1 h
  write bs s n e h := by
    have h1 := K.write bs s.1 n e
    have hr : (Thrift.watched T).write bs s = match T.write bs s.1 with
      | (.ok (n, e), t) => (.ok (n, e), (t, s.2 || e.isSome))
      | (.panic, t) => (.panic, (t, s.2))
      | (.stuck, t) => (.stuck, (t, s.2)) := rfl
    rw [hr] at h ⊢
    generalize T.write bs s.1 = r at h h1 ⊢
    rcases r with ⟨⟨n, e⟩ | _ | _, t1⟩ <;> exact h1 h
  flush s e h := by
    have h1 := K.flush s.1 e
    have hr : (Thrift.watched T).flush s = match T.flush s.1 with
      | (.ok e, t) => (.ok e, (t, s.2 || e.isSome))
      | (.panic, t) => (.panic, (t, s.2))
      | (.stuck, t) => (.stuck, (t, s.2)) := rfl
    rw [hr] at h ⊢
    generalize T.flush s.1 = r at h h1 ⊢
    rcases r with ⟨e | _ | _, t1⟩ <;> exact h1 h
  afterRead n s h := by
    have h1 := K.afterRead n s.1 h
    have hr : (Thrift.watched T).read n s = match T.read n s.1 with
      | (.ok (bs, e), t) => (.ok (bs, e), (t, s.2 || (bs.isEmpty && e.isSome)))
      | (.panic, t) => (.panic, (t, s.2))
      | (.stuck, t) => (.stuck, (t, s.2)) := rfl
    rw [hr]
    generalize T.read n s.1 = r at h1 ⊢
    rcases r with ⟨⟨bs, e⟩ | _ | _, t1⟩ <;> exact h1
  afterWrite bs s h := by
    have h1 := K.afterWrite bs s.1 h
    have hr : (Thrift.watched T).write bs s = match T.write bs s.1 with
      | (.ok (n, e), t) => (.ok (n, e), (t, s.2 || e.isSome))
      | (.panic, t) => (.panic, (t, s.2))
      | (.stuck, t) => (.stuck, (t, s.2)) := rfl
    rw [hr]
    generalize T.write bs s.1 = r at h1 ⊢
    rcases r with ⟨⟨n, e⟩ | _ | _, t1⟩ <;> exact h1
  afterFlush s h := by
    have h1 := K.afterFlush s.1 h
    have hr : (Thrift.watched T).flush s = match T.flush s.1 with
      | (.ok e, t) => (.ok e, (t, s.2 || e.isSome))
      | (.panic, t) => (.panic, (t, s.2))
      | (.stuck, t) => (.stuck, (t, s.2)) := rfl
    rw [hr]
    generalize T.flush s.1 = r at h1 ⊢
    rcases r with ⟨e | _ | _, t1⟩ <;> exact h1
  dead bs s h := by
    obtain ⟨n, e, h1⟩ := K.dead bs s.1 h
    have hr : (Thrift.watched T).write bs s = match T.write bs s.1 with
      | (.ok (n, e), t) => (.ok (n, e), (t, s.2 || e.isSome))
      | (.panic, t) => (.panic, (t, s.2))
      | (.stuck, t) => (.stuck, (t, s.2)) := rfl
    rw [hr]
    generalize T.write bs s.1 = r at h1 ⊢
    obtain ⟨r, y⟩ := r
    cases h1
    exact ⟨n, e, rfl⟩

end sticky
end Thrift
