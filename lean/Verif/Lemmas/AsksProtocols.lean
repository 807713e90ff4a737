import Verif.Lemmas.Asks
import Verif.Model.Compact
/-!
# The buffers of the binary and the compact protocol
-/

namespace Thrift

/-- Follow the text of a program. -/
macro "compose " C:term : tactic => `(tactic| repeat' first
  | assumption | exact Composes.pure $C _ | exact Composes.panic $C | exact Composes.stuck $C
  | apply Composes.ite $C | (refine Composes.bind $C ?_ fun _ => ?_) | split)

theorem once_readAll {n : Nat} (h : n ≤ 8) : P.Once _ (P.readAll n : P π _) :=
  ⟨weak_readAll n, fun s => Prog.AllAsks.asks (small_readAll h s) memory []⟩

theorem asks_get (Q : Nat → Prop) : P.AllAsks Q π (P.get : P π π) := fun _ => trivial
theorem asks_modify (Q : Nat → Prop) (f : π → π) : P.AllAsks Q _ (P.modify f) := fun _ => trivial

theorem toInt_bound (v : I32) : v.toInt.toNat < 2 ^ 31 := by
  have := BitVec.toInt_lt (x := v)
  omega

theorem asks_readAll {Q : Nat → Prop} {n : Nat} (h : Q n) : P.AllAsks Q _ (P.readAll n : P π _) := fun _ => ⟨h, fun _ => trivial⟩

namespace Bin
open BinaryProtocol

theorem check_text (n : Int) (s : Bin) : BinaryProtocol.checkReadLength n s =
    .ret (if s.checkReadLength = true ∧ s.readLength - n < 0 then
        some (newTProtocolException UNKNOWN_PROTOCOL_EXCEPTION (ascii "Message length exceeded")) else none,
      if s.checkReadLength then { s with readLength := s.readLength - n } else s) := by
  show (if s.checkReadLength = true then _ else _ : P Bin GoErr) s = _
  by_cases h : s.checkReadLength = true
  · rw [if_pos h, if_pos h]
    show (if s.readLength - n < 0 then _ else _ : P Bin GoErr) { s with readLength := s.readLength - n } = _
    by_cases h2 : s.readLength - n < 0
    · rw [if_pos h2, if_pos ⟨h, h2⟩]; rfl
    · rw [if_neg h2, if_neg fun hh => h2 hh.2]; rfl
  · rw [if_neg h, if_neg h, if_neg fun hh => h hh.1]; rfl

/-! ### Small buffers -/

theorem quiet_check (n : Int) : P.AsksNothing (BinaryProtocol.checkReadLength n) := fun s inp => by
  constructor
  · show (BinaryProtocol.checkReadLength n s).asks memory inp = []
    rw [check_text]; rfl
  · show ((BinaryProtocol.checkReadLength n s).run memory inp).2 = inp
    rw [check_text]; rfl

theorem asks_check (Q : Nat → Prop) (n : Int) : P.AllAsks Q _ (BinaryProtocol.checkReadLength n) := fun s => by
  rw [check_text]; trivial

theorem asks_buf {Q : Nat → Prop} {n : Nat} (h : Q n) : P.AllAsks Q _ (readAllBuf n) := by
  have h1 := asks_check Q n
  have h2 : P.AllAsks Q _ (P.readAll n : P Bin _) := asks_readAll h
  have C := allAsks_composes (π := Bin) Q
  unfold readAllBuf
  compose C

theorem once_buf {n : Nat} (h : n ≤ 8) : P.Once _ (readAllBuf n) := by
  have h1 := (quiet_check n).once
  have h2 : P.Once _ (P.readAll n : P Bin _) := once_readAll h
  unfold readAllBuf
  compose once_composes

theorem once_byte : P.Once _ readByte := by have := once_buf (show 1 ≤ 8 by omega); unfold readByte; compose once_composes
theorem once_bool : P.Once _ readBool := by have := once_byte; unfold readBool; compose once_composes
theorem once_i16 : P.Once _ readI16 := by have := once_buf (show 2 ≤ 8 by omega); unfold readI16; compose once_composes
theorem once_i32 : P.Once _ readI32 := by have := once_buf (show 4 ≤ 8 by omega); unfold readI32; compose once_composes
theorem once_i64 : P.Once _ readI64 := by have := once_buf (show 8 ≤ 8 by omega); unfold readI64; compose once_composes
theorem once_double : P.Once _ readDouble := by have := once_buf (show 8 ≤ 8 by omega); unfold readDouble; compose once_composes

theorem asks_byte {Q : Nat → Prop} (h : ∀ n, n ≤ 8 → Q n) : P.AllAsks Q _ readByte := by
  have := asks_buf (h 1 (by omega)); unfold readByte; compose (allAsks_composes Q)
theorem asks_i16 {Q : Nat → Prop} (h : ∀ n, n ≤ 8 → Q n) : P.AllAsks Q _ readI16 := by
  have := asks_buf (h 2 (by omega)); unfold readI16; compose (allAsks_composes Q)
theorem asks_i32 {Q : Nat → Prop} (h : ∀ n, n ≤ 8 → Q n) : P.AllAsks Q _ readI32 := by
  have := asks_buf (h 4 (by omega)); unfold readI32; compose (allAsks_composes Q)

theorem needs_i32 : P.NeedsData Prod.snd readI32 := by
  intro s a s' left h
  have h1 : readI32.run memory s [] = readI32.run memory s [] := rfl
  have hm : ∀ (x : P Bin (Bytes × GoErr)) , x = readAllBuf 4 → ∀ s b s' i, x.run memory s [] = (.ok (b, s'), i) → b.2.isSome = true := by
    rintro _ rfl s b s' i h
    change Prog.run memory ((BinaryProtocol.checkReadLength (4 : Nat) s).bind fun (e, s') =>
      (if e.isSome then return (fillBuf 4 [], e) else do
        let r ← P.readAll 4
        return (r.buf, protocolFromOsError r.err) : P Bin (Bytes × GoErr)) s') [] = _ at h
    rw [check_text] at h
    simp only [Prog.bind] at h
    split at h
    · simp only [Option.isSome_some, if_true] at h
      change (Res.ok (_, _), _) = _ at h
      simp only [Prod.mk.injEq, Res.ok.injEq] at h
      rw [← h.1.1]; rfl
    · simp only [Option.isSome_none, Bool.false_eq_true, if_false] at h
      change P.run memory (P.readAll 4 >>= fun r => Pure.pure (r.buf, protocolFromOsError r.err)) _ [] = _ at h
      rw [P.run_bind, P.run_readAll, memory_readAll] at h
      simp only [List.length_nil, Nat.le_zero, Nat.reduceEqDiff, if_false, andThen_ok, P.run_pure, Prod.mk.injEq, Res.ok.injEq] at h
      rw [← h.1.1]; rfl
  unfold readI32 at h
  rw [P.run_bind] at h
  rcases hb : (readAllBuf 4).run memory s [] with ⟨⟨b, s1⟩ | _ | _, i⟩
  · rw [hb] at h
    have := hm _ rfl s b s1 i hb
    simp only [andThen_ok, P.run_pure, Prod.mk.injEq, Res.ok.injEq] at h
    rw [← h.1.1]; exact this
  · rw [hb] at h; simp at h
  · rw [hb] at h; simp at h

/-! ### Strings -/

theorem weak_body (n : Int) (s : Bin) (inp : Bytes) : P.Weak (readStringBody n) s inp := by
  unfold readStringBody
  refine weak_ite (weak_pure _ _ _) ((quiet_check n).bind (fun e s inp => weak_ite (weak_pure _ _ _) ?_) s inp)
  exact (weak_readAll _ _ _).bind fun _ => once_composes.pure _

theorem once_string : P.Once _ readString := by
  unfold readString
  exact once_gate Prod.snd (bad := fun r => ([], r.2)) (k := fun r => readStringBody r.1.toInt) (asks_i32 fun _ h => h) once_i32 needs_i32
    fun a s inp => weak_body _ s inp

theorem once_binary : P.Once _ readBinary := by
  unfold readBinary
  refine once_gate Prod.snd (bad := fun r => ([], r.2)) (asks_i32 fun _ h => h) once_i32 needs_i32 fun a s inp => ?_
  refine (quiet_check _).bind (fun e s inp => weak_ite (weak_pure _ _ _) (weak_ite (weak_panic _ _) ?_)) s inp
  exact (weak_readAll _ _ _).bind fun _ => once_composes.pure _

theorem once_message : P.Once _ readMessageBegin := by
  have C := once_composes (π := Bin)
  unfold readMessageBegin
  refine once_gate Prod.snd (asks_i32 fun _ h => h) once_i32 needs_i32 fun a s inp => weak_ite ?_ ?_
  · refine weak_ite (weak_pure _ _ _) ?_
    exact (once_string.weak s inp).bind fun x => C.ite (C.pure _) (C.bind once_i32 fun _ => C.ite (C.pure _) (C.pure _))
  · refine quiet_get.bind (fun e s inp => weak_ite (weak_pure _ _ _) ?_) s inp
    exact (weak_body _ s inp).bind fun _ => C.ite (C.pure _) (C.bind once_byte fun _ => C.ite (C.pure _)
      (C.bind once_i32 fun _ => C.ite (C.pure _) (C.pure _)))

theorem once_field : P.Once _ readFieldBegin := by
  have h1 := once_byte
  have h2 := once_i16
  unfold readFieldBegin; compose once_composes
theorem once_map : P.Once _ readMapBegin := by
  have h1 := once_byte
  have h2 := once_i32
  unfold readMapBegin; compose once_composes
theorem once_list : P.Once _ readListBegin := by
  have h1 := once_byte
  have h2 := once_i32
  unfold readListBegin; compose once_composes

theorem binary_once : binary.Have P.Once where
  messageBegin := once_message
  messageEnd := once_composes.pure _
  structBegin := once_composes.pure _
  structEnd := once_composes.pure _
  fieldBegin := once_field
  fieldEnd := once_composes.pure _
  mapBegin := once_map
  mapEnd := once_composes.pure _
  listBegin := once_list
  listEnd := once_composes.pure _
  setBegin := once_list
  setEnd := once_composes.pure _
  bool := once_bool
  byte := once_byte
  i16 := once_i16
  i32 := once_i32
  i64 := once_i64
  double := once_double
  string := once_string
  binary := once_binary

theorem asks_body (v : I32) : P.AllAsks (· < 2 ^ 31) _ (readStringBody v.toInt) := by
  have h1 := asks_check (· < 2 ^ 31) v.toInt
  have h2 : P.AllAsks (· < 2 ^ 31) _ (P.readAll v.toInt.toNat : P Bin _) := asks_readAll (toInt_bound v)
  unfold readStringBody; compose (allAsks_composes _)

theorem small_lt : ∀ n, n ≤ 8 → n < 2 ^ 31 := fun n h => by omega

theorem binary_asks : binary.Have (P.AllAsks (· < 2 ^ 31)) := by
  have C := allAsks_composes (π := Bin) (· < 2 ^ 31)
  have h1 := asks_byte small_lt
  have h2 := asks_i16 small_lt
  have h4 := asks_i32 small_lt
  have h8 := asks_buf (Q := (· < 2 ^ 31)) (small_lt 8 (by omega))
  have hs : P.AllAsks (· < 2 ^ 31) _ readString := by
    unfold readString
    exact C.bind h4 fun x => C.ite (C.pure _) (asks_body _)
  exact {
    messageBegin := by
      show P.AllAsks _ _ readMessageBegin
      unfold readMessageBegin
      refine C.bind h4 fun x => ?_
      have hb := asks_body x.1
      have hg : P.AllAsks (· < 2 ^ 31) _ (P.get : P Bin Bin) := asks_get _
      compose C
    messageEnd := C.pure _
    structBegin := C.pure _
    structEnd := C.pure _
    fieldBegin := by show P.AllAsks _ _ readFieldBegin; unfold readFieldBegin; compose C
    fieldEnd := C.pure _
    mapBegin := by show P.AllAsks _ _ readMapBegin; unfold readMapBegin; compose C
    mapEnd := C.pure _
    listBegin := by show P.AllAsks _ _ readListBegin; unfold readListBegin; compose C
    listEnd := C.pure _
    setBegin := by show P.AllAsks _ _ readListBegin; unfold readListBegin; compose C
    setEnd := C.pure _
    bool := by show P.AllAsks _ _ readBool; unfold readBool; compose C
    byte := h1
    i16 := h2
    i32 := h4
    i64 := by show P.AllAsks _ _ readI64; unfold readI64; compose C
    double := by show P.AllAsks _ _ readDouble; unfold readDouble; compose C
    string := hs
    binary := by
      show P.AllAsks _ _ readBinary
      unfold readBinary
      refine C.bind h4 fun x => ?_
      have h5 := asks_check (· < 2 ^ 31) x.1.toInt
      have h6 : P.AllAsks (· < 2 ^ 31) _ (P.readAll x.1.toInt.toNat : P Bin _) := asks_readAll (toInt_bound x.1)
      compose C }

/-! ### Under a limit -/

end Bin

/-- All buffers together, and what is left of the limit, are covered by `b`. -/
def Prog.Pays : Int → Prog (α × Bin) → Prop
  | b, .ret x => x.2.checkReadLength = true ∧ max x.2.readLength 0 ≤ b
  | b, .panic => 0 ≤ b
  | b, .stuck => 0 ≤ b
  | b, .readAll n k => (n : Int) ≤ b ∧ ∀ x, (k x).Pays (b - n)
  | b, .write _ k => ∀ x, (k x).Pays b
  | b, .flush k => ∀ x, (k x).Pays b

theorem Prog.Pays.mono {p : Prog (α × Bin)} {b b' : Int} (h : p.Pays b) (hb : b ≤ b') : p.Pays b' := by
  induction p generalizing b b' with
  | ret x => exact ⟨h.1, Int.le_trans h.2 hb⟩
  | panic => exact Int.le_trans (show (0 : Int) ≤ b from h) hb
  | stuck => exact Int.le_trans (show (0 : Int) ≤ b from h) hb
  | readAll n k ih => exact ⟨Int.le_trans h.1 hb, fun x => ih x (h.2 x) (by omega)⟩
  | write bs k ih => exact fun x => ih x (h x) hb
  | flush k ih => exact fun x => ih x (h x) hb

theorem Prog.Pays.bind {p : Prog (α × Bin)} {f : α × Bin → Prog (β × Bin)} {b : Int} (h : p.Pays b)
    (hf : ∀ x : α × Bin, x.2.checkReadLength = true → (f x).Pays (max x.2.readLength 0)) : (p.bind f).Pays b := by
  induction p generalizing b with
  | ret x => exact (hf x h.1).mono h.2
  | panic => exact h
  | stuck => exact h
  | readAll n k ih => exact ⟨h.1, fun x => ih x (h.2 x)⟩
  | write bs k ih => exact fun x => ih x (h x)
  | flush k ih => exact fun x => ih x (h x)

theorem Prog.Pays.nonneg {p : Prog (α × Bin)} {b : Int} (h : p.Pays b) : 0 ≤ b := by
  induction p generalizing b with
  | ret x => have := h.2; omega
  | panic => exact h
  | stuck => exact h
  | readAll n k ih => have := h.1; omega
  | write bs k ih => exact ih (0, Option.none) (h _)
  | flush k ih => exact ih Option.none (h _)

theorem Prog.Pays.asks {p : Prog (α × Bin)} {b : Int} (h : p.Pays b) (T : Transport σ) (t : σ) : ((p.asks T t).sum : Int) ≤ b := by
  induction p generalizing b t with
  | ret x => exact h.nonneg
  | panic => exact h
  | stuck => exact h
  | readAll n k ih =>
    rw [Prog.asks]
    rcases T.readAll n t with ⟨x | _ | _, t'⟩
    · have := ih x (h.2 x) t'
      simp only [List.sum_cons]
      omega
    · have := h.1; simpa using this
    · have := h.1; simpa using this
  | write bs k ih =>
    rw [Prog.asks]
    rcases T.write bs t with ⟨x | _ | _, t'⟩
    · exact ih x (h x) t'
    · exact h.nonneg
    · exact h.nonneg
  | flush k ih =>
    rw [Prog.asks]
    rcases T.flush t with ⟨x | _ | _, t'⟩
    · exact ih x (h x) t'
    · exact h.nonneg
    · exact h.nonneg

/-- The same for programs, from an object with a limit. -/
def P.Pays (α : Type) (m : P Bin α) : Prop := ∀ s, s.checkReadLength = true → (m s).Pays (max s.readLength 0)

theorem pays_composes : Composes P.Pays where
  pure _ _ hs := ⟨hs, Int.le_refl _⟩
  panic _ _ := show (0 : Int) ≤ _ by omega
  stuck _ _ := show (0 : Int) ≤ _ by omega
  bind hm hf s hs := Prog.Pays.bind (hm s hs) fun x hx => hf x.1 x.2 hx

namespace Bin
open BinaryProtocol

/-- `check(n); ReadAll(n)`. -/
theorem pays_checked (n : Nat) (bad : Bytes) : P.Pays _ (do
      let e ← BinaryProtocol.checkReadLength n
      if e.isSome then return (bad, e)
      let r ← P.readAll n
      return (r.buf, protocolFromOsError r.err)) := by
  intro s hs
  show ((BinaryProtocol.checkReadLength n s).bind fun x => (if x.1.isSome then Pure.pure (bad, x.1) else do
      let r ← P.readAll n
      return (r.buf, protocolFromOsError r.err) : P Bin (Bytes × GoErr)) x.2).Pays _
  rw [check_text, if_pos hs]
  by_cases h : s.readLength - n < 0
  · rw [if_pos ⟨hs, h⟩]
    exact ⟨hs, by show max (s.readLength - n) 0 ≤ _; omega⟩
  · rw [if_neg fun hh => h hh.2]
    exact ⟨by omega, fun x => ⟨hs, by show max (s.readLength - n) 0 ≤ _; omega⟩⟩

theorem pays_buf (n : Nat) : P.Pays _ (readAllBuf n) := pays_checked n _

theorem pays_body (n : Int) : P.Pays _ (readStringBody n) := by
  unfold readStringBody
  by_cases h : n < 0
  · rw [if_pos h]; exact pays_composes.pure _
  · rw [if_neg h]
    have := pays_checked n.toNat []
    rwa [Int.toNat_of_nonneg (by omega)] at this

theorem pays_byte : P.Pays _ readByte := by have := pays_buf 1; unfold readByte; compose pays_composes
theorem pays_i16 : P.Pays _ readI16 := by have := pays_buf 2; unfold readI16; compose pays_composes
theorem pays_i32 : P.Pays _ readI32 := by have := pays_buf 4; unfold readI32; compose pays_composes
theorem pays_string : P.Pays _ readString := by
  unfold readString
  exact pays_composes.bind pays_i32 fun x => pays_composes.ite (pays_composes.pure _) (pays_body _)

theorem pays_binaryBody (n : Int) : P.Pays _ (do
    let e ← BinaryProtocol.checkReadLength n
    if e.isSome then return ([], e)
    if n < 0 then P.panic
    else do
      let r ← P.readAll n.toNat
      return (r.buf, protocolFromOsError r.err) : P Bin (Bytes × GoErr)) := by
  by_cases h : n < 0
  · intro s hs
    simp only [h, if_true]
    show ((BinaryProtocol.checkReadLength n s).bind fun x => (if x.1.isSome then Pure.pure ([], x.1) else P.panic :
      P Bin (Bytes × GoErr)) x.2).Pays _
    rw [check_text, if_pos hs]
    by_cases h2 : s.readLength - n < 0
    · rw [if_pos ⟨hs, h2⟩]
      exact ⟨hs, by show max (s.readLength - n) 0 ≤ _; omega⟩
    · rw [if_neg fun hh => h2 hh.2]
      show (0 : Int) ≤ _
      omega
  · have := pays_checked n.toNat []
    rw [Int.toNat_of_nonneg (by omega)] at this
    simpa only [h, if_false] using this

theorem binary_pays : binary.Have P.Pays := by
  have C := pays_composes
  have h1 := pays_byte
  have h2 := pays_i16
  have h4 := pays_i32
  have h8 := pays_buf 8
  have hs := pays_string
  exact {
    messageBegin := by
      show P.Pays _ readMessageBegin
      unfold readMessageBegin
      refine C.bind h4 fun x => ?_
      have hb := pays_body x.1.toInt
      have hg : P.Pays _ (P.get : P Bin Bin) := fun s hs => ⟨hs, Int.le_refl _⟩
      compose C
    messageEnd := C.pure _
    structBegin := C.pure _
    structEnd := C.pure _
    fieldBegin := by show P.Pays _ readFieldBegin; unfold readFieldBegin; compose C
    fieldEnd := C.pure _
    mapBegin := by show P.Pays _ readMapBegin; unfold readMapBegin; compose C
    mapEnd := C.pure _
    listBegin := by show P.Pays _ readListBegin; unfold readListBegin; compose C
    listEnd := C.pure _
    setBegin := by show P.Pays _ readListBegin; unfold readListBegin; compose C
    setEnd := C.pure _
    bool := by show P.Pays _ readBool; unfold readBool; compose C
    byte := h1
    i16 := h2
    i32 := h4
    i64 := by show P.Pays _ readI64; unfold readI64; compose C
    double := by show P.Pays _ readDouble; unfold readDouble; compose C
    string := hs
    binary := by
      show P.Pays _ readBinary
      unfold readBinary
      exact C.bind h4 fun x => C.ite (C.pure _) (pays_binaryBody _) }

end Bin

namespace Cmp
open CompactProtocol

theorem asks_byte' {Q : Nat → Prop} (h : ∀ n, n ≤ 8 → Q n) : P.AllAsks Q _ CompactProtocol.readByte := by
  have h2 : P.AllAsks Q _ (P.readAll 1 : P Cmp _) := asks_readAll (h 1 (by omega))
  unfold CompactProtocol.readByte; compose (allAsks_composes Q)
theorem once_byte : P.Once _ CompactProtocol.readByte := by
  have h2 : P.Once _ (P.readAll 1 : P Cmp _) := once_readAll (by omega)
  unfold CompactProtocol.readByte; compose once_composes

theorem asks_loop {Q : Nat → Prop} (h : ∀ n, n ≤ 8 → Q n) : ∀ f shift r, P.AllAsks Q _ (readVarint64Loop f shift r)
  | 0, _, _ => (allAsks_composes Q).stuck
  | f + 1, shift, r => by
    have C := allAsks_composes (π := Cmp) Q
    unfold readVarint64Loop
    exact C.bind (asks_byte' h) fun x => C.ite (C.pure _) (C.ite (C.pure _) (asks_loop h f _ _))
theorem once_loop : ∀ f shift r, P.Once _ (readVarint64Loop f shift r)
  | 0, _, _ => once_composes.stuck
  | f + 1, shift, r => by
    have C := once_composes (π := Cmp)
    unfold readVarint64Loop
    exact C.bind once_byte fun x => C.ite (C.pure _) (C.ite (C.pure _) (once_loop f _ _))

theorem asks_varint32 {Q : Nat → Prop} (h : ∀ n, n ≤ 8 → Q n) (f : Nat) : P.AllAsks Q _ (readVarint32 f) :=
  (allAsks_composes Q).bind (asks_loop h f 0 0) fun _ => (allAsks_composes Q).pure _
theorem once_varint32 (f : Nat) : P.Once _ (readVarint32 f) := once_composes.bind (once_loop f 0 0) fun _ => once_composes.pure _

theorem needs_varint32 (f : Nat) : P.NeedsData Prod.snd (readVarint32 f) := by
  intro s a s' left h
  have hb : ∀ s, CompactProtocol.readByte.run memory s [] = (.ok ((0, protocolFromOsError (some readAllErr)), s), []) := by
    intro s
    unfold CompactProtocol.readByte
    rw [P.run_bind, P.run_readAll, memory_readAll]
    rfl
  cases f with
  | zero =>
    change (Res.stuck, _) = _ at h
    simp at h
  | succ f =>
    unfold readVarint32 readVarint64 readVarint64Loop at h
    rw [P.run_bind, P.run_bind, hb] at h
    change (Res.ok ((_, protocolFromOsError (some readAllErr)), _), _) = _ at h
    simp only [Prod.mk.injEq, Res.ok.injEq] at h
    rw [← h.1.1]; rfl

theorem once_binary (f : Nat) : P.Once _ (CompactProtocol.readBinary f) := by
  unfold CompactProtocol.readBinary
  refine once_gate Prod.snd (asks_varint32 (fun _ h => h) f) (once_varint32 f) (needs_varint32 f) fun a s inp => ?_
  refine weak_ite (weak_pure _ _ _) (weak_ite (weak_panic _ _) ?_)
  exact (weak_readAll _ _ _).bind fun _ => once_composes.pure _

theorem asks_binary (f : Nat) : P.AllAsks (· < 2 ^ 31) _ (CompactProtocol.readBinary f) := by
  have C := allAsks_composes (π := Cmp) (· < 2 ^ 31)
  unfold CompactProtocol.readBinary
  exact C.bind (asks_varint32 Bin.small_lt f) fun x => C.ite (C.pure _) (C.ite (C.pure _) (C.ite C.panic
    (C.bind (asks_readAll (toInt_bound x.1)) fun _ => C.pure _)))

/-- What is needed of a property of compact readers. -/
theorem compact_have {Φ : (α : Type) → P Cmp α → Prop} (C : Composes Φ) (f : Nat) (h1 : Φ _ CompactProtocol.readByte)
    (hv : ∀ shift r, Φ _ (readVarint64Loop f shift r)) (hb : Φ _ (CompactProtocol.readBinary f)) (h8 : Φ _ (P.readAll 8))
    (hg : Φ _ P.get) (hm : ∀ g, Φ _ (P.modify g)) : (compact f).Have Φ := by
  have hv64 : Φ _ (readVarint64 f) := hv 0 0
  have hv32 : Φ _ (readVarint32 f) := by unfold readVarint32; compose C
  have hi32 : Φ _ (CompactProtocol.readI32 f) := by unfold CompactProtocol.readI32; compose C
  have hi16 : Φ _ (CompactProtocol.readI16 f) := by unfold CompactProtocol.readI16; compose C
  have hs : Φ _ (CompactProtocol.readString f) := by unfold CompactProtocol.readString; compose C
  have hl : Φ _ (CompactProtocol.readListBegin f) := by unfold CompactProtocol.readListBegin; compose C
  exact {
    messageBegin := by show Φ _ (CompactProtocol.readMessageBegin f); unfold CompactProtocol.readMessageBegin; compose C
    messageEnd := C.pure _
    structBegin := C.bind (hm _) fun _ => C.pure _
    structEnd := by
      refine C.bind hg fun s => ?_
      split
      · exact C.panic
      · exact C.bind (hm _) fun _ => C.pure _
    fieldBegin := by
      show Φ _ (CompactProtocol.readFieldBegin f)
      unfold CompactProtocol.readFieldBegin
      refine C.bind h1 fun x => C.ite (C.pure _) (C.ite (C.pure _) (C.bind hg fun s => ?_))
      have aux : ∀ y : I16 × GoErr, Φ _ (if y.2.isSome then Pure.pure (([], TT.STOP, y.1), y.2) else
          if (getTType (x.1 &&& 0x0f)).2.isSome then
            Pure.pure (([], (getTType (x.1 &&& 0x0f)).1, y.1), protocolFromOsError (getTType (x.1 &&& 0x0f)).2)
          else if isBoolType x.1 then do
            P.modify fun s => { s with boolValue := x.1 &&& 0x0f = CT.BOOLEAN_TRUE, boolValueIsNotNull := true }
            P.modify fun s => { s with lastFieldId := y.1.toInt }
            return (([], (getTType (x.1 &&& 0x0f)).1, y.1), none)
          else do
            P.modify fun s => { s with lastFieldId := y.1.toInt }
            return (([], (getTType (x.1 &&& 0x0f)).1, y.1), none) : P Cmp ((Bytes × TType × I16) × GoErr)) := by
        intro y
        refine C.ite (C.pure _) (C.ite (C.pure _) (C.ite ?_ ?_))
        · exact C.bind (hm _) fun _ => C.bind (hm _) fun _ => C.pure _
        · exact C.bind (hm _) fun _ => C.pure _
      exact C.ite (C.bind hi16 aux) (C.bind (C.pure _) aux)
    fieldEnd := C.pure _
    mapBegin := by show Φ _ (CompactProtocol.readMapBegin f); unfold CompactProtocol.readMapBegin; compose C
    mapEnd := C.pure _
    listBegin := hl
    listEnd := C.pure _
    setBegin := hl
    setEnd := C.pure _
    bool := by
      refine C.bind hg fun s => C.ite (C.bind (hm _) fun _ => C.pure _) (C.bind h1 fun _ => C.pure _)
    byte := h1
    i16 := hi16
    i32 := hi32
    i64 := by show Φ _ (CompactProtocol.readI64 f); unfold CompactProtocol.readI64; compose C
    double := by show Φ _ CompactProtocol.readDouble; unfold CompactProtocol.readDouble; compose C
    string := hs
    binary := hb }

theorem compact_once (f : Nat) : (compact f).Have P.Once :=
  compact_have once_composes f once_byte (once_loop f) (once_binary f) (once_readAll (by omega)) quiet_get.once fun g => (quiet_modify g).once

theorem compact_asks (f : Nat) : (compact f).Have (P.AllAsks (· < 2 ^ 31)) :=
  compact_have (allAsks_composes _) f (asks_byte' Bin.small_lt) (asks_loop Bin.small_lt f) (asks_binary f)
    (asks_readAll (Q := (· < 2 ^ 31)) (Bin.small_lt 8 (by omega))) (asks_get _) (asks_modify _)

end Cmp

/-! ## Frames -/

theorem needs_readAll {n : Nat} (h : 0 < n) : P.NeedsData (·.err) (P.readAll n : P π _) := by
  intro s a s' left hr
  rw [P.run_readAll, memory_readAll, if_neg (by simp; omega)] at hr
  simp only [Prod.mk.injEq, Res.ok.injEq] at hr
  rw [← hr.1.1]; rfl

theorem once_frame : P.Once _ framedReadFrame := by
  unfold framedReadFrame
  refine once_gate (fun r : ReadAllResult => r.err) (bad := fun r => (0, r.err)) (small_readAll (by omega)) (once_readAll (by omega)) (needs_readAll (by omega)) fun a s inp => ?_
  refine weak_ite (weak_pure _ _ _) ((weak_readAll _ _ _).bind fun _ => ?_)
  exact once_composes.ite (once_composes.pure _) (once_composes.bind (quiet_modify _).once fun _ => once_composes.pure _)

theorem once_framedRead (n : Nat) : P.Once _ (framedRead n) := by
  have C := once_composes (π := Framed)
  have hq : P.Once _ (framedBufferRead n) := P.AsksNothing.once fun _ _ => ⟨rfl, rfl⟩
  have hf := once_frame
  have hg : P.Once _ (P.get : P Framed Framed) := quiet_get.once
  unfold framedRead
  compose C

theorem asks_framedRead (n : Nat) : P.AllAsks (· < 2 ^ 32) _ (framedRead n) := by
  have C := allAsks_composes (π := Framed) (· < 2 ^ 32)
  have hq : P.AllAsks (· < 2 ^ 32) _ (framedBufferRead n) := fun _ => trivial
  have hm : ∀ g : Framed → Framed, P.AllAsks (· < 2 ^ 32) _ (P.modify g) := asks_modify _
  have hf : P.AllAsks (· < 2 ^ 32) _ framedReadFrame := by
    unfold framedReadFrame
    refine C.bind (asks_readAll (by omega)) fun x => C.ite (C.pure _) (C.ite (C.pure _) (C.bind (asks_readAll (BitVec.isLt _)) fun y => C.ite (C.pure _) ?_))
    exact C.bind (hm _) fun _ => C.pure _
  have hg : P.AllAsks (· < 2 ^ 32) _ (P.get : P Framed Framed) := asks_get _
  unfold framedRead
  compose C

end Thrift
