import Verif.Lemmas.Wp
import Verif.Lemmas.BinaryMessage
/-!
# The read limit of the binary protocol
-/

namespace Thrift
open BinaryProtocol
namespace Bin

/-- What a read call may do under a limit: the limit stays on, what is consumed
is paid for out of the (non-negative part of the) remaining limit, and a call
without error has paid exactly and is still within the limit. -/
def Metered (s : Bin) (inp : Bytes) (ok : Prop) (s' : Bin) (i : Bytes) : Prop :=
  s'.checkReadLength = true ∧ i.length ≤ inp.length ∧
  (inp.length : Int) - i.length + max s'.readLength 0 ≤ max s.readLength 0 ∧
  (ok → 0 ≤ s.readLength → s'.readLength = s.readLength - (inp.length - i.length) ∧ 0 ≤ s'.readLength)

/-- A panicking call has stayed within the limit too. -/
def WithinLimit (s : Bin) (inp : Bytes) (i : Bytes) : Prop :=
  i.length ≤ inp.length ∧ (inp.length : Int) - i.length ≤ max s.readLength 0

/-- Calls under a limit. -/
def Limited (ok : α → Prop) (m : P Bin α) : Prop :=
  ∀ s inp, s.checkReadLength = true →
    Wp m s inp (fun a s' i => Metered s inp (ok a) s' i) (WithinLimit s inp)

theorem Limited.pure {ok : α → Prop} (a : α) : Limited ok (Pure.pure a : P Bin α) :=
  fun s inp hs => Wp.pure ⟨hs, Nat.le_refl _, by omega, fun _ h => ⟨by omega, h⟩⟩

theorem Limited.panic {ok : α → Prop} : Limited ok (P.panic : P Bin α) :=
  fun s inp _ => Wp.panic ⟨Nat.le_refl _, by omega⟩

theorem Limited.ite {ok : α → Prop} {c : Prop} [Decidable c] {a b : P Bin α} (ha : Limited ok a)
    (hb : Limited ok b) : Limited ok (if c then a else b) := by
  split <;> assumption

/-- Sequencing; `ok` of the whole must imply `ok` of the first part. -/
theorem Limited.bind {ok1 : α → Prop} {ok2 : β → Prop} {m : P Bin α} {k : α → P Bin β}
    (hm : Limited ok1 m) (hk : ∀ a, Limited (fun b => ok2 b ∧ ok1 a) (k a))
    (hok : ∀ a b s inp s' i out, (k a).run duplex s (inp, out) = (.ok (b, s'), (i, out)) → ok2 b → ok1 a) :
    Limited ok2 (m >>= k) := by
  intro s inp hs out
  rcases hm s inp hs out with ⟨a, s1, i1, h1, hm1⟩ | ⟨i1, h1, hx⟩
  · rcases hk a s1 i1 hm1.1 out with ⟨b, s2, i2, h2, hm2⟩ | ⟨i2, h2, hx⟩
    · refine .inl ⟨b, s2, i2, by simp [h1, h2], hm2.1, Nat.le_trans hm2.2.1 hm1.2.1, ?_, fun hb h0 => ?_⟩
      · have := hm1.2.2.1; have := hm2.2.2.1; omega
      · have ha := hok a b s1 i1 s2 i2 out h2 hb
        have h3 := hm1.2.2.2 ha h0
        have h4 := hm2.2.2.2 ⟨hb, ha⟩ h3.2
        omega
    · refine .inr ⟨i2, by simp [h1, h2], Nat.le_trans hx.1 hm1.2.1, ?_⟩
      have := hm1.2.2.1; have := hx.2; have := hm1.2.1; have := hx.1
      omega
  · exact .inr ⟨i1, by simp [h1], hx⟩

/-- Weakening of `ok`. -/
theorem Limited.mono {ok ok' : α → Prop} {m : P Bin α} (h : Limited ok m) (hi : ∀ a, ok' a → ok a) :
    Limited ok' m :=
  fun s inp hs => Wp.mono (h s inp hs) fun _ _ _ hm => ⟨hm.1, hm.2.1, hm.2.2.1, fun a b => hm.2.2.2 (hi _ a) b⟩

/-- No error. -/
abbrev Fine : α × GoErr → Prop := fun r => r.2 = none

theorem run_check_limited (n : Int) (s : Bin) (hs : s.checkReadLength = true) (t : Bytes × Bytes) :
    (BinaryProtocol.checkReadLength n).run duplex s t =
      (.ok (if s.readLength - n < 0 then
          some (newTProtocolException UNKNOWN_PROTOCOL_EXCEPTION (ascii "Message length exceeded")) else none,
        { s with readLength := s.readLength - n }), t) := by
  simp only [BinaryProtocol.checkReadLength, P.run_bind, P.run_get, andThen_ok, P.run_ite, hs, if_true,
    P.run_modify]
  split <;> rfl

theorem noErr_of_protocolFromOsError {e : GoErr} (h : protocolFromOsError e = none) : e = none := by
  cases e with
  | none => rfl
  | some e => simp only [protocolFromOsError] at h; split at h <;> simp at h

/-- The pattern `check(n); ReadAll(n)`. -/
theorem limited_checked (n : Nat) (bad : Bytes) :
    Limited Fine (do
      let e ← BinaryProtocol.checkReadLength n
      if e.isSome then return (bad, e)
      let r ← P.readAll n
      return (r.buf, protocolFromOsError r.err)) := by
  intro s inp hs out
  left
  simp only [P.run_bind, run_check_limited n s hs, andThen_ok]
  by_cases h : s.readLength - n < 0
  · refine ⟨_, _, _, by simp only [h, if_true]; rfl, ?_⟩
    exact ⟨hs, Nat.le_refl _, by simp only; omega, fun h0 => by simp [Fine] at h0⟩
  · simp only [h, if_false, Option.isSome_none, Bool.false_eq_true, P.run_bind, P.run_readAll_duplex]
    by_cases hn : n ≤ inp.length
    · refine ⟨_, { s with readLength := s.readLength - n }, _, by simp only [hn, if_true]; rfl, hs, by simp, ?_, fun _ _ => ?_⟩
      · simp only [List.length_drop]; omega
      · simp only [List.length_drop]; omega
    · refine ⟨_, { s with readLength := s.readLength - n }, _, by simp only [hn, if_false]; rfl, hs, by simp, ?_, fun h0 => ?_⟩
      · simp only [List.length_nil]; omega
      · simp [Fine] at h0

theorem limited_readAllBuf (n : Nat) : Limited Fine (readAllBuf n) := limited_checked n _

/-- `x, e := m; return f(x), e`. -/
theorem Limited.map {m : P Bin (α × GoErr)} {f : α × GoErr → β} (h : Limited Fine m) :
    Limited Fine (m >>= fun r => Pure.pure (f r, r.2)) := by
  refine h.bind (fun a => Limited.pure _) ?_
  intro a b s inp s' i out hr hb
  simp only [P.run_pure, Prod.mk.injEq, Res.ok.injEq] at hr
  obtain ⟨⟨rfl, _⟩, _⟩ := hr
  exact hb

/-- `x, e := m; if e != nil { return bad, e }; k x`. -/
theorem Limited.check {m : P Bin (α × GoErr)} {k : α × GoErr → P Bin (β × GoErr)} {bad : α × GoErr → β}
    {w : GoErr → GoErr} (hw : ∀ e, w e = none → e = none) (hm : Limited Fine m)
    (hk : ∀ a, Limited Fine (k (a, none))) :
    Limited Fine (m >>= fun r => if r.2.isSome then Pure.pure (bad r, w r.2) else k r) := by
  refine hm.bind ?_ ?_
  · rintro ⟨a, e⟩
    cases e with
    | none => exact (hk a).mono fun _ h => h.1
    | some e => exact Limited.pure _
  · rintro ⟨a, e⟩ b s inp s' i out hr hb
    cases e with
    | none => rfl
    | some e =>
      simp only [Option.isSome_some, if_true, P.run_pure, Prod.mk.injEq, Res.ok.injEq] at hr
      obtain ⟨⟨rfl, _⟩, _⟩ := hr
      exact hw _ hb

theorem limited_byte : Limited Fine readByte := Limited.map (limited_readAllBuf 1)
theorem limited_bool : Limited Fine readBool := Limited.map limited_byte
theorem limited_i16 : Limited Fine readI16 := Limited.map (limited_readAllBuf 2)
theorem limited_i32 : Limited Fine readI32 := Limited.map (limited_readAllBuf 4)
theorem limited_i64 : Limited Fine readI64 := Limited.map (limited_readAllBuf 8)
theorem limited_double : Limited Fine readDouble := Limited.map (limited_readAllBuf 8)

theorem limited_stringBody (n : Int) : Limited Fine (readStringBody n) := by
  unfold readStringBody
  by_cases h : n < 0
  · rw [if_pos h]; exact Limited.pure _
  · rw [if_neg h]
    have := limited_checked n.toNat []
    rwa [Int.toNat_of_nonneg (by omega)] at this

theorem limited_string : Limited Fine readString :=
  Limited.check (w := id) (fun _ h => h) limited_i32 fun _ => limited_stringBody _

/-- A negative length raises the remaining limit, but the call panics. -/
theorem limited_binaryBody (n : Int) : Limited Fine (do
    let e ← BinaryProtocol.checkReadLength n
    if e.isSome then return ([], e)
    if n < 0 then P.panic
    else do
      let r ← P.readAll n.toNat
      return (r.buf, protocolFromOsError r.err)) := by
  by_cases h : n < 0
  · intro s inp hs out
    simp only [P.run_bind, run_check_limited n s hs, andThen_ok]
    by_cases h2 : s.readLength - n < 0
    · refine .inl ⟨_, _, _, by simp only [h2, if_true]; rfl, ?_⟩
      exact ⟨hs, Nat.le_refl _, by simp only; omega, fun h0 => by simp [Fine] at h0⟩
    · refine .inr ⟨inp, by simp [h2, h], Nat.le_refl _, by omega⟩
  · have := limited_checked n.toNat []
    rw [Int.toNat_of_nonneg (by omega)] at this
    simpa only [h, if_false] using this

theorem limited_binary : Limited Fine readBinary :=
  Limited.check (w := id) (fun _ h => h) limited_i32 fun _ => limited_binaryBody _

theorem limited_fieldBegin : Limited Fine readFieldBegin := by
  refine Limited.check (w := id) (fun _ h => h) limited_byte fun a => ?_
  exact Limited.ite (Limited.map limited_i16) (Limited.pure _)

theorem limited_mapBegin : Limited Fine readMapBegin :=
  Limited.check (fun _ => noErr_of_protocolFromOsError) limited_byte fun _ =>
  Limited.check (fun _ => noErr_of_protocolFromOsError) limited_byte fun _ =>
  Limited.check (fun _ => noErr_of_protocolFromOsError) limited_i32 fun _ => Limited.pure _

theorem limited_listBegin : Limited Fine readListBegin :=
  Limited.check (fun _ => noErr_of_protocolFromOsError) limited_byte fun _ =>
  Limited.check (fun _ => noErr_of_protocolFromOsError) limited_i32 fun _ => Limited.pure _

theorem limited_get {ok : Bin → Prop} : Limited ok (P.get : P Bin Bin) :=
  fun s inp hs => Wp.get ⟨hs, Nat.le_refl _, by omega, fun _ h => ⟨by omega, h⟩⟩

theorem limited_messageBegin : Limited Fine readMessageBegin := by
  refine Limited.check (fun _ => noErr_of_protocolFromOsError) limited_i32 fun size => ?_
  refine Limited.ite ?_ ?_
  · refine Limited.ite (Limited.pure _) ?_
    exact Limited.check (fun _ => noErr_of_protocolFromOsError) limited_string fun _ =>
      Limited.check (fun _ => noErr_of_protocolFromOsError) limited_i32 fun _ => Limited.pure _
  · refine (limited_get (ok := fun _ => True)).bind (fun s => ?_) (fun _ _ _ _ _ _ _ _ _ => trivial)
    refine Limited.ite (Limited.pure _) (Limited.mono (ok := Fine) ?_ fun _ h => h.1)
    exact Limited.check (w := id) (fun _ h => h) (limited_stringBody _) fun _ =>
      Limited.check (w := id) (fun _ h => h) limited_byte fun _ =>
      Limited.check (w := id) (fun _ h => h) limited_i32 fun _ => Limited.pure _

end Bin
end Thrift
