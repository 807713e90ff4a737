import Verif.Model.Metadata
/-!
# C192: texts and equality of messages and fields
-/

namespace Thrift

/-- The byte continues a character of UTF-8. -/
def Continues (b : Byte) : Prop := 0x80 ≤ b.toNat ∧ b.toNat < 0xc0

/-- No code point: negative, too large, or a surrogate. -/
def NoCodePoint (n : Int) : Prop := n < 0 ∨ n > 0x10ffff ∨ (0xd800 ≤ n ∧ n ≤ 0xdfff)

instance (n : Int) : Decidable (NoCodePoint n) := by unfold NoCodePoint; infer_instance

theorem toNat_small {n : Nat} (h : n < 256) : (BitVec.ofNat 8 n).toNat = n := by
  rw [BitVec.toNat_ofNat]; exact Nat.mod_eq_of_lt h

theorem runeString_shape (n : Int) : ∃ h t, runeString n = h :: t ∧ ¬ Continues h ∧ ∀ c ∈ t, Continues c := by
  unfold runeString
  split
  · exact ⟨0xef, [0xbf, 0xbd], rfl, by unfold Continues; decide, by intro c hc; simp at hc; rcases hc with rfl | rfl <;> (unfold Continues; decide)⟩
  · rename_i hn
    simp only
    have hc : n.toNat ≤ 0x10ffff := by omega
    generalize n.toNat = c at hc
    split
    · exact ⟨_, [], rfl, by unfold Continues; rw [toNat_small (by omega)]; omega, by simp⟩
    split
    · refine ⟨_, _, rfl, by unfold Continues; rw [toNat_small (by omega)]; omega, ?_⟩
      intro x hx
      simp only [List.mem_singleton] at hx
      subst hx; unfold Continues; rw [toNat_small (by omega)]; omega
    split
    · refine ⟨_, _, rfl, by unfold Continues; rw [toNat_small (by omega)]; omega, ?_⟩
      intro x hx
      simp only [List.mem_cons, List.not_mem_nil, or_false] at hx
      rcases hx with rfl | rfl <;> (unfold Continues; rw [toNat_small (by omega)]; omega)
    · refine ⟨_, _, rfl, by unfold Continues; rw [toNat_small (by omega)]; omega, ?_⟩
      intro x hx
      simp only [List.mem_cons, List.not_mem_nil, or_false] at hx
      rcases hx with rfl | rfl | rfl <;> (unfold Continues; rw [toNat_small (by omega)]; omega)

theorem split_last {a b t t' : Bytes} {h h' : Byte} (hh : ¬ Continues h) (hh' : ¬ Continues h') (ht : ∀ c ∈ t, Continues c)
    (ht' : ∀ c ∈ t', Continues c) (e : a ++ h :: t = b ++ h' :: t') : a = b ∧ h = h' ∧ t = t' := by
  rcases List.append_eq_append_iff.1 e with ⟨c, rfl, he⟩ | ⟨c, rfl, he⟩
  · cases c with
    | nil =>
      simp only [List.nil_append, List.cons.injEq] at he
      exact ⟨by simp, he⟩
    | cons x c =>
      simp only [List.cons_append, List.cons.injEq] at he
      exact absurd (ht h' (by rw [he.2]; simp)) hh'
  · cases c with
    | nil =>
      simp only [List.nil_append, List.cons.injEq] at he
      exact ⟨by simp, he.1.symm, he.2.symm⟩
    | cons x c =>
      simp only [List.cons_append, List.cons.injEq] at he
      exact absurd (ht' h (by rw [he.2]; simp)) hh

/-- The last character of a text is determined. -/
theorem rune_last {a b : Bytes} {n m : Int} (e : a ++ runeString n = b ++ runeString m) : a = b ∧ runeString n = runeString m := by
  obtain ⟨h, t, e1, h1, h2⟩ := runeString_shape n
  obtain ⟨h', t', e2, h3, h4⟩ := runeString_shape m
  rw [e1, e2] at e
  obtain ⟨r1, r2, r3⟩ := split_last h1 h3 h2 h4 e
  exact ⟨r1, by rw [e1, e2, r2, r3]⟩

theorem ofNat8_inj {x y : Nat} (hx : x < 256) (hy : y < 256) (h : BitVec.ofNat 8 x = BitVec.ofNat 8 y) : x = y := by
  have := congrArg BitVec.toNat h
  rwa [toNat_small hx, toNat_small hy] at this

theorem runeString_valid {n : Int} (hn : ¬ NoCodePoint n) : runeString n =
    (let c := n.toNat
    if c < 0x80 then [BitVec.ofNat 8 c]
    else if c < 0x800 then [BitVec.ofNat 8 (0xc0 + c / 64), BitVec.ofNat 8 (0x80 + c % 64)]
    else if c < 0x10000 then
      [BitVec.ofNat 8 (0xe0 + c / 4096), BitVec.ofNat 8 (0x80 + c / 64 % 64), BitVec.ofNat 8 (0x80 + c % 64)]
    else
      [BitVec.ofNat 8 (0xf0 + c / 262144), BitVec.ofNat 8 (0x80 + c / 4096 % 64),
        BitVec.ofNat 8 (0x80 + c / 64 % 64), BitVec.ofNat 8 (0x80 + c % 64)]) := by
  unfold runeString; exact if_neg hn

theorem runeString_inj_valid {n m : Int} (hn : ¬ NoCodePoint n) (hm : ¬ NoCodePoint m) (h : runeString n = runeString m) : n = m := by
  rw [runeString_valid hn, runeString_valid hm] at h
  unfold NoCodePoint at hn hm
  have hn' : n.toNat ≤ 0x10ffff ∧ n = n.toNat := by omega
  have hm' : m.toNat ≤ 0x10ffff ∧ m = m.toNat := by omega
  rw [hn'.2, hm'.2]
  have hc := hn'.1
  have hd := hm'.1
  clear hn hm hn' hm'
  generalize n.toNat = c at *
  generalize m.toNat = d at *
  simp only at h
  congr 1
  split at h
  · split at h
    · simp only [List.cons.injEq, and_true] at h
      exact ofNat8_inj (by omega) (by omega) h
    split at h
    · simp at h
    split at h <;> simp at h
  split at h
  · split at h
    · simp at h
    split at h
    · simp only [List.cons.injEq, and_true] at h
      have := ofNat8_inj (by omega) (by omega) h.1
      have := ofNat8_inj (by omega) (by omega) h.2
      omega
    split at h <;> simp at h
  split at h
  · split at h
    · simp at h
    split at h
    · simp at h
    split at h
    · simp only [List.cons.injEq, and_true] at h
      have := ofNat8_inj (by omega) (by omega) h.1
      have := ofNat8_inj (by omega) (by omega) h.2.1
      have := ofNat8_inj (by omega) (by omega) h.2.2
      omega
    · simp at h
  · split at h
    · simp at h
    split at h
    · simp at h
    split at h
    · simp at h
    · simp only [List.cons.injEq, and_true] at h
      have := ofNat8_inj (by omega) (by omega) h.1
      have := ofNat8_inj (by omega) (by omega) h.2.1
      have := ofNat8_inj (by omega) (by omega) h.2.2.1
      have := ofNat8_inj (by omega) (by omega) h.2.2.2
      omega

/-- What stands for a number that is no code point is the code point U+FFFD. -/
def shown (n : Int) : Int := if NoCodePoint n then 0xfffd else n

theorem runeString_shown (n : Int) : runeString n = runeString (shown n) := by
  unfold shown
  split
  · rename_i h
    have : runeString n = [0xef, 0xbf, 0xbd] := by unfold runeString; exact if_pos h
    rw [this]; decide
  · rfl

theorem shown_valid (n : Int) : ¬ NoCodePoint (shown n) := by
  unfold shown
  split
  · decide
  · assumption

theorem runeString_eq_iff (n m : Int) : runeString n = runeString m ↔ shown n = shown m := by
  constructor
  · intro h
    rw [runeString_shown n, runeString_shown m] at h
    exact runeString_inj_valid (shown_valid n) (shown_valid m) h
  · intro h
    rw [runeString_shown n, runeString_shown m, h]

/-! ## The claim -/

/-- C192 in full: different fields have different texts, and so do different
messages. -/
def C192_statement : Prop :=
  (∀ p q : Field, p.text = q.text → p = q) ∧ (∀ p q : Message, p.text = q.text → p = q)

/-- The texts of fields -1 and -2 are the same. -/
theorem C192_violated : ¬ C192_statement := fun h =>
  absurd (h.1 ⟨[], 0, -1⟩ ⟨[], 0, -2⟩ (by decide)) (by decide)

/-- The texts of messages -1 and -2 are the same. -/
theorem C192_message_violated : ¬ C192_statement := fun h =>
  absurd (h.2 ⟨[], 1, -1⟩ ⟨[], 1, -2⟩ (by decide)) (by decide)

/-- What is shown of field 65 is the letter A. -/
theorem C192_digits_violated : Field.text ⟨[102], 8, 65⟩ = ascii "<TField name:'f' type:\x08 field-id:A>" := by decide

theorem shown_byte (b : Byte) : shown b.toNat = b.toNat := by
  have := b.isLt
  unfold shown
  rw [if_neg]
  unfold NoCodePoint
  omega

/-- Two fields have the same text exactly if they have the same name and type and
their ids are the same or none of the two is a code point (where U+FFFD stands for
those). -/
theorem C192_partial (p q : Field) : p.text = q.text ↔ p.name = q.name ∧ p.typeId = q.typeId ∧ shown p.id = shown q.id := by
  constructor
  · intro h
    unfold Field.text at h
    obtain ⟨h, e1⟩ := rune_last (List.append_cancel_right h)
    obtain ⟨h, e2⟩ := rune_last (List.append_cancel_right h)
    have h := List.append_cancel_left (List.append_cancel_right h)
    have e2 := (runeString_eq_iff _ _).1 e2
    rw [shown_byte, shown_byte] at e2
    exact ⟨h, BitVec.eq_of_toNat_eq (by omega), (runeString_eq_iff _ _).1 e1⟩
  · rintro ⟨h1, h2, h3⟩
    unfold Field.text
    rw [h1, h2, (runeString_eq_iff _ _).2 h3]

example : Field.text ⟨[102], 8, 955⟩ ≠ Field.text ⟨[102], 8, 956⟩ := by
  rw [ne_eq, C192_partial]; decide

/-- Two messages have the same text exactly if they have the same name and the same
code points, or none, for types and for sequence numbers. -/
theorem C192_message_partial (p q : Message) : p.text = q.text ↔
    p.name = q.name ∧ shown p.typeId.toInt = shown q.typeId.toInt ∧ shown p.seqid.toInt = shown q.seqid.toInt := by
  constructor
  · intro h
    unfold Message.text at h
    obtain ⟨h, e1⟩ := rune_last (List.append_cancel_right h)
    obtain ⟨h, e2⟩ := rune_last (List.append_cancel_right h)
    have h := List.append_cancel_left (List.append_cancel_right h)
    exact ⟨h, (runeString_eq_iff _ _).1 e2, (runeString_eq_iff _ _).1 e1⟩
  · rintro ⟨h1, h2, h3⟩
    unfold Message.text
    rw [h1, (runeString_eq_iff _ _).2 h2, (runeString_eq_iff _ _).2 h3]

/-- Fields and messages whose ids are code points are determined by their texts. -/
theorem C192_determined (p q : Field) (hp : ¬ NoCodePoint p.id) (hq : ¬ NoCodePoint q.id) (h : p.text = q.text) : p = q := by
  obtain ⟨h1, h2, h3⟩ := (C192_partial p q).1 h
  unfold shown at h3
  rw [if_neg hp, if_neg hq] at h3
  cases p; cases q; simp_all

example : ¬ NoCodePoint 955 := by decide

/-- `Equals` of messages is equality, and so the text never differs where it says
yes. -/
theorem C192_equals (p q : Message) : (p.equals q = true ↔ p = q) ∧ (p.equals q = true → p.text = q.text) := by
  have : p.equals q = true ↔ p = q := by
    unfold Message.equals
    cases p; cases q
    simp [and_assoc]
  exact ⟨this, fun h => by rw [this.1 h]⟩

/-- A message has the name, the type and the sequence number it was made with, and
messages made with different ones are different. -/
theorem C192_new (n n' : Bytes) (t t' : I32) (s s' : I64) :
    (Message.new n t s).equals (Message.new n' t' s') = true ↔ n = n' ∧ t = t' ∧ s = s' := by
  rw [(C192_equals _ _).1]
  simp [Message.new]

/-- The default message equals the messages with no name and two zeros only; it is
of no message type that is ever sent. -/
theorem C192_default (p : Message) : (Message.default.equals p = true ↔ p = Message.new [] 0 0) ∧
    Message.default.typeId ∉ [1, 2, 3, 4] := by
  refine ⟨?_, by decide⟩
  rw [(C192_equals _ _).1]
  exact eq_comm

/-- The order by which fields are sorted is the order of `CompareTo` for different
ids, and says no for equal ones. -/
theorem C192_less (p q : Field) : (fieldLess p q = true → p.compareTo q = -1) ∧
    (p.id ≠ q.id → p.compareTo q = -1 → fieldLess p q = true) ∧ (p.id = q.id → fieldLess p q = false) := by
  unfold fieldLess Field.compareTo compareInt
  refine ⟨fun h => ?_, fun h1 h2 => ?_, fun h => ?_⟩
  · have h : p.id < q.id := by simpa using h
    rw [if_pos (by omega)]
    repeat' split
    all_goals omega
  · rw [if_pos h1] at h2
    simp only [decide_eq_true_eq]
    repeat' split at h2
    all_goals omega
  · simp only [decide_eq_false_iff_not]; omega

/-- A field that is not there has the type VOID and the id -1, unlike the anonymous
field. -/
theorem C192_nil (f : Field) : fieldTypeIdOf none = TT.VOID ∧ fieldIdOf none = -1 ∧ fieldNameOf none = [] ∧
    fieldTextOf none ≠ fieldTextOf (some f) ∧ fieldTypeIdOf (some f) = f.typeId ∧ fieldIdOf (some f) = f.id ∧ fieldNameOf (some f) = f.name := by
  refine ⟨rfl, rfl, rfl, fun h => ?_, rfl, rfl, rfl⟩
  have := congrArg (fun b : Bytes => b[1]?) h
  simp [fieldTextOf, Field.text, ascii] at this

end Thrift
