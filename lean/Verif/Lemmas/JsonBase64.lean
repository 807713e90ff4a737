import Verif.Lemmas.JsonDoc
/-!
# Binary data in JSON documents
-/

namespace Thrift
namespace JsonB
open JsonProtocol JsonSpec JsonW JsonR

variable {τ : Type} {E : JsonEnv τ}

theorem value_char : ∀ n : Nat, n < 64 → b64value (b64char n) = some n := by decide +kernel

theorem char_ok : ∀ n : Nat, n < 64 → b64char n ≠ 61 ∧ b64char n ≠ 34 ∧ b64char n ≠ 13 ∧ b64char n ≠ 10 ∧ b64char n ≠ 92 ∧
    32 ≤ (b64char n).toNat := by decide +kernel

/-- Only characters of the alphabet and the padding. -/
def Clean (s : Bytes) : Prop := ∀ b ∈ s, b = 61 ∨ ∃ n, n < 64 ∧ b = b64char n

theorem encode_clean : ∀ v : Bytes, Clean (b64encode v)
  | a :: b :: c :: r => by
    have ha := a.isLt; have hb := b.isLt; have hc := c.isLt
    intro x hx
    simp only [b64encode, List.mem_cons] at hx
    rcases hx with rfl | rfl | rfl | rfl | hx
    · exact Or.inr ⟨_, by omega, rfl⟩
    · exact Or.inr ⟨_, by omega, rfl⟩
    · exact Or.inr ⟨_, by omega, rfl⟩
    · exact Or.inr ⟨_, by omega, rfl⟩
    · exact encode_clean r x hx
  | [a, b] => by
    have ha := a.isLt; have hb := b.isLt
    intro x hx
    simp only [b64encode, List.mem_cons, List.not_mem_nil, or_false] at hx
    rcases hx with rfl | rfl | rfl | rfl
    · exact Or.inr ⟨_, by omega, rfl⟩
    · exact Or.inr ⟨_, by omega, rfl⟩
    · exact Or.inr ⟨_, by omega, rfl⟩
    · exact Or.inl rfl
  | [a] => by
    have ha := a.isLt
    intro x hx
    simp only [b64encode, List.mem_cons, List.not_mem_nil, or_false] at hx
    rcases hx with rfl | rfl | rfl | rfl
    · exact Or.inr ⟨_, by omega, rfl⟩
    · exact Or.inr ⟨_, by omega, rfl⟩
    · exact Or.inl rfl
    · exact Or.inl rfl
  | [] => by intro x hx; simp [b64encode] at hx

theorem clean_char {s : Bytes} (h : Clean s) {b : Byte} (hb : b ∈ s) : b ≠ 34 ∧ b ≠ 13 ∧ b ≠ 10 ∧ b ≠ 92 ∧ 32 ≤ b.toNat := by
  rcases h b hb with rfl | ⟨n, hn, rfl⟩
  · decide
  · exact ⟨(char_ok n hn).2.1, (char_ok n hn).2.2.1, (char_ok n hn).2.2.2.1, (char_ok n hn).2.2.2.2.1, (char_ok n hn).2.2.2.2.2⟩

theorem clean_chars {s : Bytes} (h : Clean s) : Chars s := by
  induction s with
  | nil => exact .nil
  | cons b r ih =>
    have hb := clean_char h (b := b) (by simp)
    exact .plain b r hb.2.2.2.2 hb.1 hb.2.2.2.1 (ih fun x hx => h x (by simp [hx]))

theorem byte_eq {n : Nat} {b : Byte} (h : n = b.toNat) : BitVec.ofNat 8 n = b := by
  subst h; exact BitVec.eq_of_toNat_eq (by simp)

theorem quanta_encode : ∀ v : Bytes, b64quanta (b64encode v) = (v, true)
  | a :: b :: c :: r => by
    have ha := a.isLt; have hb := b.isLt; have hc := c.isLt
    have ih := quanta_encode r
    have h1 := value_char (a.toNat / 4) (by omega)
    have h2 := value_char (a.toNat % 4 * 16 + b.toNat / 16) (by omega)
    have h3 := value_char (b.toNat % 16 * 4 + c.toNat / 64) (by omega)
    have h4 := value_char (c.toNat % 64) (by omega)
    have n4 := (char_ok (c.toNat % 64) (by omega)).1
    rw [b64encode, b64quanta.eq_4]
    · simp only [h1, h2, h3, h4, ih]
      have e1 : BitVec.ofNat 8 (a.toNat / 4 * 4 + (a.toNat % 4 * 16 + b.toNat / 16) / 16) = a := byte_eq (by omega)
      have e2 : BitVec.ofNat 8 ((a.toNat % 4 * 16 + b.toNat / 16) % 16 * 16 + (b.toNat % 16 * 4 + c.toNat / 64) / 4) = b := byte_eq (by omega)
      have e3 : BitVec.ofNat 8 ((b.toNat % 16 * 4 + c.toNat / 64) % 4 * 64 + c.toNat % 64) = c := byte_eq (by omega)
      rw [e1, e2, e3]
    · intro _ e; exact fun _ => n4 e
    · intro e; exact absurd e n4
  | [a, b] => by
    have ha := a.isLt; have hb := b.isLt
    have h1 := value_char (a.toNat / 4) (by omega)
    have h2 := value_char (a.toNat % 4 * 16 + b.toNat / 16) (by omega)
    have h3 := value_char (b.toNat % 16 * 4) (by omega)
    have n3 := (char_ok (b.toNat % 16 * 4) (by omega)).1
    rw [b64encode]
    show b64quanta [_, _, _, 61#8] = _
    rw [b64quanta.eq_3]
    · simp only [h1, h2, h3]
      have e1 : BitVec.ofNat 8 (a.toNat / 4 * 4 + (a.toNat % 4 * 16 + b.toNat / 16) / 16) = a := byte_eq (by omega)
      have e2 : BitVec.ofNat 8 ((a.toNat % 4 * 16 + b.toNat / 16) % 16 * 16 + (b.toNat % 16 * 4) / 4) = b := byte_eq (by omega)
      rw [e1, e2]
    · intro e; exact absurd e n3
  | [a] => by
    have ha := a.isLt
    have h1 := value_char (a.toNat / 4) (by omega)
    have h2 := value_char (a.toNat % 4 * 16) (by omega)
    rw [b64encode]
    show b64quanta [_, _, 61#8, 61#8] = _
    rw [b64quanta.eq_2]
    simp only [h1, h2]
    have e1 : BitVec.ofNat 8 (a.toNat / 4 * 4 + (a.toNat % 4 * 16) / 16) = a := byte_eq (by omega)
    rw [e1]
  | [] => rfl

theorem decode_encode (v : Bytes) : b64decode (b64encode v) = (v, true) := by
  unfold b64decode
  have : (b64encode v).filter (fun b => !(b = 13 || b = 10)) = b64encode v := by
    rw [List.filter_eq_self]
    intro b hb
    have h := clean_char (encode_clean v) hb
    have h1 := h.2.1
    have h2 := h.2.2.1
    simp only [Bool.not_eq_true', Bool.or_eq_false_iff, decide_eq_false_iff_not]
    exact ⟨h1, h2⟩
  rw [this, quanta_encode]

theorem encode_append : ∀ a b : Bytes, a.length % 3 = 0 → b64encode (a ++ b) = b64encode a ++ b64encode b
  | [], b, _ => rfl
  | [_], _, h => by simp at h
  | [_, _], _, h => by simp at h
  | x :: y :: z :: r, b, h => by
    have := encode_append r b (by simp at h; omega)
    simp only [List.cons_append, b64encode, this]

/-! ## Writing -/

theorem runs_write (v : Bytes) (s : Json τ) (inp out : Bytes) :
    (P.write v : P (Json τ) _).run duplex s (inp, out) = (.ok ((v.length, none), s), (inp, out ++ v)) := by
  simp

theorem b64write_run (s : Json τ) : ∀ (fuel : Nat) (v inp out : Bytes), v.length ≤ fuel → ∃ done left,
    v = done ++ left ∧ done.length % 3 = 0 ∧
    (b64write fuel v).run duplex s (inp, out) = (.ok ((left, none), s), (inp, out ++ b64encode done))
  | 0, v, inp, out, h => by
    have : v = [] := List.length_eq_zero_iff.1 (by omega)
    subst this
    exact ⟨[], [], rfl, rfl, by simp [b64write, b64encode]⟩
  | fuel + 1, v, inp, out, h => by
    by_cases hv : v.length < 3
    · exact ⟨[], v, rfl, rfl, by simp [b64write, hv, b64encode]⟩
    · have hn : 0 < (if v.length < 768 then v.length - v.length % 3 else 768) ∧
          (if v.length < 768 then v.length - v.length % 3 else 768) ≤ v.length ∧
          (if v.length < 768 then v.length - v.length % 3 else 768) % 3 = 0 := by split <;> omega
      generalize hk : (if v.length < 768 then v.length - v.length % 3 else 768) = k at hn
      obtain ⟨done, left, e, h3, hr⟩ := b64write_run s fuel (v.drop k) inp (out ++ b64encode (v.take k)) (by simp; omega)
      refine ⟨v.take k ++ done, left, ?_, ?_, ?_⟩
      · rw [List.append_assoc, ← e, List.take_append_drop]
      · rw [List.length_append, List.length_take, Nat.min_eq_left hn.2.1]; omega
      · have ht : (v.take k).length % 3 = 0 := by rw [List.length_take, Nat.min_eq_left hn.2.1]; omega
        rw [encode_append _ _ ht, ← List.append_assoc, ← hr]
        simp only [b64write, hv, if_false, hk]
        simp

/-- The text of binary data. -/
def base64Text (v : Bytes) : Bytes := inQuotes (b64encode v)

theorem b64_all (v : Bytes) (s : Json τ) (inp out : Bytes) : ∃ left,
    (b64write v.length v).run duplex s (inp, out) = (.ok ((left, none), s), (inp, out ++ b64encode (v.take (v.length - left.length)))) ∧
    (b64close left).run duplex s (inp, out ++ b64encode (v.take (v.length - left.length))) = (.ok (none, s), (inp, out ++ b64encode v)) := by
  obtain ⟨done, left, e, h3, hr⟩ := b64write_run s v.length v inp out (Nat.le_refl _)
  have hd : v.take (v.length - left.length) = done := by
    subst e; simp
  refine ⟨left, by rw [hd]; exact hr, ?_⟩
  rw [hd]
  have he : b64encode v = b64encode done ++ b64encode left := by rw [e]; exact encode_append _ _ h3
  rw [he]
  by_cases hl : left = []
  · subst hl; simp [b64close, b64encode]
  · simp [b64close, hl]

theorem emits_binary (v : Bytes) (s : Json τ) (c : JCtx) (r : List JCtx) :
    Emits ((simpleJson E).writeBinary v) (s.at c r) (s.at (JCtx.next c) r) (sepOf c ++ base64Text v) := by
  have tail : Emits (do
      let (r, e) ← b64write v.length v
      if e.isSome then return protocolFromOsError e
      let e ← b64close r
      if e.isSome then return protocolFromOsError e
      let e ← put [QUOTE]
      if e.isSome then return e
      outputPostValue) (s.at c r) (s.at (JCtx.next c) r) (b64encode v ++ ([34] ++ [])) := by
    intro inp out
    obtain ⟨left, h1, h2⟩ := b64_all v (s.at c r) inp out
    simp only [P.run_bind, h1, andThen_ok, Option.isSome_none, Bool.false_eq_true, if_false, h2]
    have := (Emits.seq (emits_put [QUOTE] (s.at c r)) (emits_post s c r)) inp (out ++ b64encode v)
    simp only [P.run_bind] at this
    rw [List.append_assoc] at this
    exact this
  refine (Emits.seq (emits_pre s c r) (Emits.seq (emits_put [QUOTE] (s.at c r)) tail)).congr ?_
  simp [base64Text, inQuotes, QUOTE]

theorem emits_tbinary (v : Bytes) (s : Json τ) (c : JCtx) (r : List JCtx) :
    Emits ((tjson E).writeBinary v) (s.at c r) (s.at (JCtx.next c) r) (sepOf c ++ base64Text v) := by
  have tail : Emits (do
      let _ ← P.write [QUOTE]
      let (r, e) ← b64write v.length v
      if e.isSome then return protocolFromOsError e
      let _ ← b64close r
      let _ ← P.write [QUOTE]
      outputPostValue) (s.at c r) (s.at (JCtx.next c) r) ([34] ++ (b64encode v ++ ([34] ++ []))) := by
    intro inp out
    obtain ⟨left, h1, h2⟩ := b64_all v (s.at c r) inp (out ++ [34])
    simp only [P.run_bind, runs_write, QUOTE, h1, andThen_ok, Option.isSome_none, Bool.false_eq_true, if_false, h2]
    have := emits_post s c r inp (out ++ [34] ++ b64encode v ++ [34])
    rw [this]
    simp
  refine (Emits.seq (emits_pre s c r) tail).congr ?_
  simp [base64Text, inQuotes]

/-! ## Reading -/

theorem cut_clean {s : Bytes} (h : Clean s) (rest : Bytes) : cutAfter QUOTE (s ++ 34 :: rest) = some (s ++ [34], rest) := by
  induction s with
  | nil => simp [cutAfter, QUOTE]
  | cons b r ih =>
    have hb := (clean_char h (b := b) (by simp)).1
    have : ¬ b = QUOTE := hb
    rw [List.cons_append, cutAfter, if_neg this, ih fun x hx => h x (by simp [hx])]
    rfl

theorem gets_binary {t : τ} {c pc} {rest : Bytes} (v : Bytes) (hf : 0 < E.fuel) (h : Follows E t 2 rest) :
    Gets E t (readBinary E) (c :: pc) (sepOf c ++ (base64Text v ++ rest)) (v, none) (JCtx.next c :: pc) rest := by
  have hb : Gets E t (parseBase64EncodedBody E) (c :: pc) ((b64encode v ++ [34]) ++ rest) (v, none) (c :: pc) rest := by
    unfold parseBase64EncodedBody
    refine Gets.bind (gets_readUntil E QUOTE hf (line := b64encode v ++ [34]) (rest := rest) ?_) ?_
    · rw [List.append_assoc]; exact cut_clean (encode_clean v) rest
    · simp only [Option.isSome_none, Bool.false_eq_true, if_false, List.dropLast_concat, decode_encode, if_true]
      exact Gets.pure _ _ _
  have := gets_quoted (c := c) (pc := pc) (x := b64encode v) hf h (by simpa using hb)
  exact this

end JsonB
end Thrift
