import Verif.Lemmas.BinaryLimit
/-!
# A limited reader that reports no error behaves as an unlimited one
-/

namespace Thrift
open BinaryProtocol
namespace Bin

/-- The reader with its limit switched off. -/
def unlimited (s : Bin) : Bin := { s with checkReadLength := false, readLength := 0 }

/-- Forget the limit in an outcome. -/
def forget : Res (α × Bin) → Res (α × Bin)
  | .ok (a, s) => .ok (a, unlimited s)
  | .panic => .panic
  | .stuck => .stuck

/-- Either an error is reported or the outcome is that of the unlimited reader. -/
def Agrees (err : α → GoErr) (m : P Bin α) : Prop :=
  ∀ s t, (∃ a s' t', m.run duplex s t = (.ok (a, s'), t') ∧ (err a).isSome) ∨
    (∃ r t', m.run duplex s t = (r, t') ∧ m.run duplex (unlimited s) t = (forget r, t'))

theorem Agrees.pure (err : α → GoErr) (a : α) : Agrees err (Pure.pure a : P Bin α) :=
  fun s t => .inr ⟨.ok (a, s), t, rfl, rfl⟩

theorem Agrees.panic (err : α → GoErr) : Agrees err (P.panic : P Bin α) :=
  fun _ t => .inr ⟨.panic, t, rfl, rfl⟩

theorem Agrees.readAll (err : _ → GoErr) (n : Nat) : Agrees err (P.readAll n : P Bin _) := by
  rintro s ⟨i, o⟩
  by_cases h : n ≤ i.length
  · exact .inr ⟨_, _, by rw [P.run_readAll_duplex, if_pos h], by rw [P.run_readAll_duplex, if_pos h]; rfl⟩
  · exact .inr ⟨_, _, by rw [P.run_readAll_duplex, if_neg h], by rw [P.run_readAll_duplex, if_neg h]; rfl⟩

theorem agrees_check (n : Int) : Agrees id (BinaryProtocol.checkReadLength n) := by
  intro s t
  have hu : (BinaryProtocol.checkReadLength n).run duplex (unlimited s) t = (.ok (none, unlimited s), t) := rfl
  cases hs : s.checkReadLength with
  | false =>
    exact .inr ⟨.ok (none, s), t, run_check n s hs duplex t, hu⟩
  | true =>
    have h := run_check_limited n s hs t
    by_cases h0 : s.readLength - n < 0
    · exact .inl ⟨_, _, _, h, by simp [h0]⟩
    · refine .inr ⟨_, _, h, ?_⟩
      rw [hu, if_neg h0]; rfl

theorem Agrees.bind {e1 : α → GoErr} {e2 : β → GoErr} {m : P Bin α} {k : α → P Bin β} (hm : Agrees e1 m)
    (hk : ∀ a, Agrees e2 (k a))
    (hf : ∀ a, (e1 a).isSome → ∀ s t, ∃ b s' t', (k a).run duplex s t = (.ok (b, s'), t') ∧ (e2 b).isSome) :
    Agrees e2 (m >>= k) := by
  intro s t
  rcases hm s t with ⟨a, s', t', h, he⟩ | ⟨r, t', h, h'⟩
  · obtain ⟨b, s'', t'', h2, he2⟩ := hf a he s' t'
    exact .inl ⟨b, s'', t'', by simp [h, h2], he2⟩
  · cases r with
    | panic => exact .inr ⟨.panic, t', by simp [h], by simp [h', forget]⟩
    | stuck => exact .inr ⟨.stuck, t', by simp [h], by simp [h', forget]⟩
    | ok x =>
      obtain ⟨a, s'⟩ := x
      rcases hk a s' t' with ⟨b, s'', t'', h2, he2⟩ | ⟨r, t'', h2, h2'⟩
      · exact .inl ⟨b, s'', t'', by simp [h, h2], he2⟩
      · exact .inr ⟨r, t'', by simp [h, h2], by simp [h', forget, h2']⟩

theorem Agrees.ite {err : α → GoErr} {c : Prop} [Decidable c] {a b : P Bin α} (ha : Agrees err a)
    (hb : Agrees err b) : Agrees err (if c then a else b) := by
  split <;> assumption

/-- `x, e := m; if e != nil { return bad, e }; k x`. -/
theorem Agrees.check {m : P Bin (α × GoErr)} {k : α × GoErr → P Bin (β × GoErr)} {bad : α × GoErr → β}
    {w : GoErr → GoErr} (hw : ∀ e, e.isSome → (w e).isSome) (hm : Agrees Prod.snd m)
    (hk : ∀ a, Agrees Prod.snd (k (a, none))) :
    Agrees Prod.snd (m >>= fun r => if r.2.isSome then Pure.pure (bad r, w r.2) else k r) := by
  refine hm.bind ?_ ?_
  · rintro ⟨a, e⟩
    cases e with
    | none => exact hk a
    | some e => exact Agrees.pure _ _
  · intro a h s t
    rw [if_pos h]
    exact ⟨_, _, _, rfl, hw _ h⟩

theorem Agrees.checkE {m : P Bin GoErr} {k : GoErr → P Bin (β × GoErr)} {bad : β}
    (hm : Agrees id m) (hk : Agrees Prod.snd (k none)) :
    Agrees Prod.snd (m >>= fun e => if e.isSome then Pure.pure (bad, e) else k e) := by
  refine hm.bind ?_ ?_
  · intro e
    cases e with
    | none => exact hk
    | some e => exact Agrees.pure _ _
  · intro a h s t
    simp only [id] at h
    rw [if_pos h]
    exact ⟨_, _, _, rfl, h⟩

theorem Agrees.map {m : P Bin (α × GoErr)} {f : α × GoErr → β} (hm : Agrees Prod.snd m) :
    Agrees Prod.snd (m >>= fun r => Pure.pure (f r, r.2)) :=
  hm.bind (fun _ => Agrees.pure _ _) fun _ h _ _ => ⟨_, _, _, rfl, h⟩

theorem isSome_wrap (e : GoErr) (h : e.isSome) : (protocolFromOsError e).isSome := by
  cases e with
  | none => simp at h
  | some e => simp only [protocolFromOsError]; split <;> rfl

theorem agrees_raw (n : Nat) : Agrees Prod.snd (do
    let r ← P.readAll n; return (r.buf, protocolFromOsError r.err) : P Bin (Bytes × GoErr)) :=
  (Agrees.readAll (·.err) n).bind (fun _ => Agrees.pure _ _) fun _ h _ _ => ⟨_, _, _, rfl, isSome_wrap _ h⟩

theorem agrees_readAllBuf (n : Nat) : Agrees Prod.snd (readAllBuf n) :=
  Agrees.checkE (agrees_check n) (agrees_raw n)

theorem agrees_byte : Agrees Prod.snd readByte := Agrees.map (agrees_readAllBuf 1)
theorem agrees_bool : Agrees Prod.snd readBool := Agrees.map agrees_byte
theorem agrees_i16 : Agrees Prod.snd readI16 := Agrees.map (agrees_readAllBuf 2)
theorem agrees_i32 : Agrees Prod.snd readI32 := Agrees.map (agrees_readAllBuf 4)
theorem agrees_i64 : Agrees Prod.snd readI64 := Agrees.map (agrees_readAllBuf 8)
theorem agrees_double : Agrees Prod.snd readDouble := Agrees.map (agrees_readAllBuf 8)

theorem agrees_stringBody (n : Int) : Agrees Prod.snd (readStringBody n) := by
  unfold readStringBody
  exact Agrees.ite (Agrees.pure _ _) (Agrees.checkE (agrees_check n) (agrees_raw _))

theorem agrees_string : Agrees Prod.snd readString :=
  Agrees.check (w := id) (fun _ h => h) agrees_i32 fun _ => agrees_stringBody _

theorem agrees_binary : Agrees Prod.snd readBinary :=
  Agrees.check (w := id) (fun _ h => h) agrees_i32 fun _ => Agrees.checkE (agrees_check _)
    (Agrees.ite (Agrees.panic _) (agrees_raw _))

theorem agrees_fieldBegin : Agrees Prod.snd readFieldBegin :=
  Agrees.check (w := id) (fun _ h => h) agrees_byte fun _ =>
    Agrees.ite (Agrees.map agrees_i16) (Agrees.pure _ _)

theorem agrees_mapBegin : Agrees Prod.snd readMapBegin :=
  Agrees.check isSome_wrap agrees_byte fun _ => Agrees.check isSome_wrap agrees_byte fun _ =>
  Agrees.check isSome_wrap agrees_i32 fun _ => Agrees.pure _ _

theorem agrees_listBegin : Agrees Prod.snd readListBegin :=
  Agrees.check isSome_wrap agrees_byte fun _ => Agrees.check isSome_wrap agrees_i32 fun _ => Agrees.pure _ _

/-- Looking at the mode is not affected by the limit. -/
theorem Agrees.getStrict {err : α → GoErr} {k : Bool → P Bin α} (h : ∀ b, Agrees err (k b)) :
    Agrees err (P.get >>= fun s => k s.strictRead) := by
  intro s t
  simp only [P.run_bind, P.run_get, andThen_ok]
  exact h s.strictRead s t

theorem agrees_messageBegin : Agrees Prod.snd readMessageBegin := by
  refine Agrees.check isSome_wrap agrees_i32 fun size => ?_
  refine Agrees.ite ?_ ?_
  · refine Agrees.ite (Agrees.pure _ _) ?_
    exact Agrees.check isSome_wrap agrees_string fun _ =>
      Agrees.check isSome_wrap agrees_i32 fun _ => Agrees.pure _ _
  · refine Agrees.getStrict (k := fun b => if b then _ else _) fun b => ?_
    refine Agrees.ite (Agrees.pure _ _) ?_
    exact Agrees.check (w := id) (fun _ h => h) (agrees_stringBody _) fun _ =>
      Agrees.check (w := id) (fun _ h => h) agrees_byte fun _ =>
      Agrees.check (w := id) (fun _ h => h) agrees_i32 fun _ => Agrees.pure _ _

end Bin
end Thrift
