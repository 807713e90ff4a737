import Verif.Lemmas.CompactCalm
import Verif.Lemmas.CompactTotal
/-!
# Readers of the compact protocol on input without long varints
-/

namespace Thrift

/-! ## A logic for programs that may run out of fuel -/

/-- Started in a state and with an input that satisfy `A` the program does not
panic, and if it returns then `B`. -/
def Tri (A : π → Bytes → Prop) (m : P π α) (B : α → π → Bytes → Prop) : Prop :=
  ∀ s inp out, A s inp → (m.run duplex s (inp, out)).1 ≠ .panic ∧
    ∀ a s' t, m.run duplex s (inp, out) = (.ok (a, s'), t) → B a s' t.1

namespace Tri
variable {A : π → Bytes → Prop}

theorem pure {a : α} {B : α → π → Bytes → Prop} (h : ∀ s i, A s i → B a s i) : Tri A (Pure.pure a : P π α) B :=
  fun s inp out hs => ⟨by rw [P.run_pure]; exact (nomatch ·), fun a' s' t ht => by rw [P.run_pure] at ht; cases ht; exact h _ _ hs⟩
theorem ret {a : α} : Tri A (Pure.pure a : P π α) (fun _ => A) := pure fun _ _ h => h
theorem get : Tri A (P.get : P π π) (fun a s i => a = s ∧ A s i) :=
  fun s inp out hs => ⟨by rw [P.run_get]; exact (nomatch ·), fun a' s' t ht => by rw [P.run_get] at ht; cases ht; exact ⟨rfl, hs⟩⟩
theorem modify {f : π → π} {B : π → Bytes → Prop} (h : ∀ s i, A s i → B (f s) i) : Tri A (P.modify f) (fun _ => B) :=
  fun s inp out hs => ⟨by rw [P.run_modify]; exact (nomatch ·), fun a' s' t ht => by rw [P.run_modify] at ht; cases ht; exact h _ _ hs⟩
theorem stuck {B : α → π → Bytes → Prop} : Tri A (P.stuck : P π α) B :=
  fun _ _ _ _ => ⟨(nomatch ·), fun _ _ _ h => (nomatch h)⟩

theorem bind {m : P π α} {f : α → P π β} {B : α → π → Bytes → Prop} {C : β → π → Bytes → Prop} (h : Tri A m B)
    (hf : ∀ a, Tri (B a) (f a) C) : Tri A (m >>= f) C := by
  intro s inp out hs
  obtain ⟨h1, h2⟩ := h s inp out hs
  rw [P.run_bind]
  rcases hm : m.run duplex s (inp, out) with ⟨⟨a, s'⟩ | _ | _, ⟨inp', out'⟩⟩
  · rw [andThen_ok]; exact hf a s' inp' out' (h2 a s' _ hm)
  · rw [hm] at h1; exact absurd rfl h1
  · rw [andThen_stuck]; exact ⟨(nomatch ·), fun _ _ _ h => (nomatch h)⟩

/-- The common case: one invariant throughout. -/
theorem seq {m : P π α} {f : α → P π β} {B : π → Bytes → Prop} {C : β → π → Bytes → Prop} (h : Tri A m (fun _ => B))
    (hf : ∀ a, Tri B (f a) C) : Tri A (m >>= f) C := bind h hf

theorem ite {c : Prop} [Decidable c] {a b : P π α} {B : α → π → Bytes → Prop} (ha : c → Tri A a B) (hb : ¬ c → Tri A b B) :
    Tri A (if c then a else b) B := by
  split
  · exact ha ‹_›
  · exact hb ‹_›

theorem mono {m : P π α} {A' : π → Bytes → Prop} {B B' : α → π → Bytes → Prop} (h : Tri A m B) (ha : ∀ s i, A' s i → A s i)
    (hb : ∀ a s i, B a s i → B' a s i) : Tri A' m B' :=
  fun s inp out hs => ⟨(h s inp out (ha _ _ hs)).1, fun a s' t ht => hb _ _ _ ((h s inp out (ha _ _ hs)).2 a s' t ht)⟩

theorem pre {m : P π α} {A' : π → Bytes → Prop} {B : α → π → Bytes → Prop} (h : Tri A m B) (ha : ∀ s i, A' s i → A s i) : Tri A' m B :=
  h.mono ha fun _ _ _ h => h

theorem post {m : P π α} {B B' : α → π → Bytes → Prop} (h : Tri A m B) (hb : ∀ a s i, B a s i → B' a s i) : Tri A m B' :=
  h.mono (fun _ _ h => h) hb

theorem readAll {n : Nat} {B : ReadAllResult → π → Bytes → Prop}
    (h1 : ∀ s i, A s i → n ≤ i.length → B ⟨i.take n, n, none⟩ s (i.drop n))
    (h2 : ∀ s i, A s i → i.length < n → B ⟨fillBuf n i, 0, some readAllErr⟩ s []) : Tri A (P.readAll n : P π _) B := by
  intro s inp out hs
  rw [P.run_readAll_duplex]
  by_cases h : n ≤ inp.length
  · rw [if_pos h]; exact ⟨(nomatch ·), fun a s' t ht => by cases ht; exact h1 _ _ hs h⟩
  · rw [if_neg h]; exact ⟨(nomatch ·), fun a s' t ht => by cases ht; exact h2 _ _ hs (by omega)⟩

theorem repeatN {b : P π Unit} (h : Tri A b (fun _ => A)) : ∀ n, Tri A (Thrift.repeatN n b) (fun _ => A)
  | 0 => .ret
  | n + 1 => .bind h fun _ => repeatN h n

/-- A program that does not read leaves the input as it is. -/
theorem guard {A B : π → Prop} {I : Bytes → Prop} {m : P π α} (h : P.Guard A m B) :
    Tri (fun s i => A s ∧ I i) m (fun _ s i => B s ∧ I i) := by
  have aux : ∀ (p : Prog (α × π)) (Q : α × π → Prop) (t : Bytes × Bytes), p.Post Q → (p.run duplex t).1 ≠ .panic ∧
      ∀ x t', p.run duplex t = (.ok x, t') → Q x ∧ t'.1 = t.1 := by
    intro p Q t hp
    induction p generalizing t with
    | ret a => exact ⟨(nomatch ·), fun x t' h => by cases h; exact ⟨hp, rfl⟩⟩
    | panic => exact hp.elim
    | stuck => exact ⟨(nomatch ·), fun x t' h => (nomatch h)⟩
    | readAll n k ih => exact hp.elim
    | write bs k ih => exact ih _ (t.1, t.2 ++ bs) (hp _)
    | flush k ih => exact ih _ t (hp _)
  intro s inp out hs
  obtain ⟨h1, h2⟩ := aux (m s) _ (inp, out) (h s hs.1)
  refine ⟨h1, fun a s' t ht => ?_⟩
  obtain ⟨h3, h4⟩ := h2 (a, s') t ht
  exact ⟨h3, by rw [h4]; exact hs.2⟩

end Tri

/-! ## Short varints -/

theorem NoLong.drop {inp : Bytes} (h : NoLong inp) (n : Nat) : NoLong (inp.drop n) := by
  intro pre run post he hr
  refine h (inp.take n ++ pre) run post ?_ hr
  rw [List.append_assoc, List.append_assoc, ← List.append_assoc pre, ← he, List.take_append_drop]

theorem NoLong.nil : NoLong [] := by
  intro pre run post he _
  obtain ⟨h1, h2⟩ := List.append_eq_nil_iff.mp he.symm
  obtain ⟨h1, h3⟩ := List.append_eq_nil_iff.mp h1
  rw [h3]; decide

namespace Cmp
open CompactProtocol

/-- Room for `h` ends of structs on the stack, and no long varints ahead. -/
def Room (h : Nat) (s : Cmp) (i : Bytes) : Prop := High h s ∧ NoLong i

theorem Room.pop {h : Nat} {s : Cmp} {i : Bytes} (hs : Room (h + 1) s i) : Room h s i := ⟨hs.1.pop, hs.2⟩

variable {h : Nat}

theorem tr_all (n : Nat) : Tri (Room h) (P.readAll n : P Cmp _) (fun _ => Room h) :=
  .readAll (fun _ _ hs _ => ⟨hs.1, hs.2.drop n⟩) fun _ _ hs _ => ⟨hs.1, .nil⟩

theorem tr_byte : Tri (Room h) readByte (fun _ => Room h) := .seq (tr_all 1) fun _ => .ite (fun _ => .ret) fun _ => .ret

theorem tr_double : Tri (Room h) readDouble (fun _ => Room h) := .seq (tr_all 8) fun _ => .ite (fun _ => .ret) fun _ => .ret

/-- The bytes of a varint, with at most `k` more to come that say there is another. -/
theorem tr_loop : ∀ (fuel k shift : Nat) (result : I64), shift + 7 * k = 28 → result.toNat < 2 ^ shift →
    Tri (fun s i => Room h s i ∧ ∀ run post, i = run ++ post → (∀ b ∈ run, 128 ≤ b.toNat) → run.length < k)
      (readVarint64Loop fuel shift result) (fun r s i => Room h s i ∧ r.1.toNat < 2 ^ 28)
  | 0, _, _, _, _, _ => .stuck
  | fuel + 1, 0, _, _, _, _ => by
    intro s inp out hs
    exact absurd (hs.2 [] inp rfl nofun) (by decide)
  | fuel + 1, k + 1, shift, result, hk, hr => by
    unfold readVarint64Loop
    refine .bind (B := fun r s i => Room h s i ∧ (r.2 = none → 128 ≤ r.1.toNat → ∀ run post, i = run ++ post →
      (∀ b ∈ run, 128 ≤ b.toNat) → run.length < k)) ?_ fun r => ?_
    · unfold readByte
      refine .bind (B := fun r s i => Room h s i ∧ (r.err = none → 128 ≤ (r.buf.headD 0).toNat → ∀ run post, i = run ++ post →
        (∀ b ∈ run, 128 ≤ b.toNat) → run.length < k)) ?_ fun r => .ite (fun he => .pure fun s i h => ⟨h.1, fun hn => ?_⟩) fun he => .pure fun s i h => ⟨h.1, fun _ => h.2 ?_⟩
      · refine .readAll (fun s i hs hl => ⟨⟨hs.1.1, hs.1.2.drop 1⟩, fun _ hb run post he hrun => ?_⟩) fun s i hs _ => ⟨⟨hs.1.1, .nil⟩, fun h => (nomatch h)⟩
        cases i with
        | nil => exact absurd hl (by decide)
        | cons b i =>
          have := hs.2 (b :: run) post (by rw [List.cons_append, ← he]; rfl) (by
            intro x hx
            rcases List.mem_cons.mp hx with rfl | hx
            · exact hb
            · exact hrun x hx)
          exact Nat.lt_of_succ_lt_succ this
      · exact absurd hn (not_none_of_isSome he)
      · simpa using he
    · have hsh : (2 : Nat) ^ shift ≤ 2 ^ 28 := Nat.pow_le_pow_right (by decide) (by omega)
      refine .ite (fun _ => .pure fun s i h => ⟨h.1, by show (0 : I64).toNat < _; decide⟩) fun he => ?_
      have hb : (result ||| ((r.1 &&& 0x7f).setWidth 64 <<< shift)).toNat < 2 ^ (shift + 7) := by
        rw [BitVec.toNat_or, BitVec.toNat_shiftLeft]
        refine Nat.or_lt_two_pow (Nat.lt_of_lt_of_le hr (Nat.pow_le_pow_right (by decide) (by omega))) ?_
        have h7 : (r.1 &&& 0x7f).toNat < 2 ^ 7 := by
          rw [BitVec.toNat_and]
          exact Nat.and_lt_two_pow _ (by decide)
        rw [BitVec.toNat_setWidth_of_le (by decide), Nat.shiftLeft_eq]
        refine Nat.lt_of_le_of_lt (Nat.mod_le _ _) ?_
        rw [Nat.pow_add, Nat.mul_comm]
        exact Nat.mul_lt_mul_of_pos_left h7 (Nat.two_pow_pos _)
      refine .ite (fun _ => .pure fun s i h => ⟨h.1, Nat.lt_of_lt_of_le hb (Nat.pow_le_pow_right (by decide) (by omega))⟩) fun hc => ?_
      refine (tr_loop fuel k (shift + 7) _ (by omega) hb).pre fun s i hs => ⟨hs.1, hs.2 (by simpa using he) ?_⟩
      have hc : r.1 &&& 0x80 = 0x80 := Classical.not_not.mp hc
      have : ∀ b : Byte, b &&& 0x80 = 0x80 → 128 ≤ b.toNat := by decide +kernel
      exact this _ hc

theorem tr_varint64 (f : Nat) : Tri (Room h) (readVarint64 f) (fun r s i => Room h s i ∧ r.1.toNat < 2 ^ 28) :=
  (tr_loop f 4 0 0 rfl (by decide)).pre fun _ i hs => ⟨hs, fun run post he hr => hs.2 [] run post he hr⟩

theorem tr_varint32 (f : Nat) : Tri (Room h) (readVarint32 f) (fun r s i => Room h s i ∧ 0 ≤ r.1.toInt) := by
  refine .bind (tr_varint64 f) fun r => .pure fun s i hs => ⟨hs.1, ?_⟩
  have : (r.1.setWidth 32).toNat < 2 ^ 28 := by
    rw [BitVec.toNat_setWidth]
    exact Nat.lt_of_le_of_lt (Nat.mod_le _ _) hs.2
  show 0 ≤ (r.1.setWidth 32).toInt
  rw [BitVec.toInt_eq_toNat_cond, if_pos (by omega)]
  omega

theorem tr_varint32' (f : Nat) : Tri (Room h) (readVarint32 f) (fun _ => Room h) := (tr_varint32 f).post fun _ _ _ h => h.1
theorem tr_i32 (f : Nat) : Tri (Room h) (readI32 f) (fun _ => Room h) := .seq (tr_varint32' f) fun _ => .ite (fun _ => .ret) fun _ => .ret
theorem tr_i16 (f : Nat) : Tri (Room h) (readI16 f) (fun _ => Room h) := .seq (tr_i32 f) fun _ => .ret
theorem tr_i64 (f : Nat) : Tri (Room h) (readI64 f) (fun _ => Room h) :=
  .seq ((tr_varint64 f).post fun _ _ _ h => h.1) fun _ => .ite (fun _ => .ret) fun _ => .ret

theorem tr_binary (f : Nat) : Tri (Room h) (readBinary f) (fun _ => Room h) := by
  refine .bind (tr_varint32 f) fun r => .ite (fun _ => .pure fun _ _ h => h.1) fun _ => .ite (fun _ => .pure fun _ _ h => h.1) fun _ => ?_
  by_cases hr : r.1.toInt < 0
  · intro s inp out hs
    exact absurd hr (Int.not_lt.mpr hs.2)
  · rw [if_neg hr]
    exact .seq ((tr_all _).pre fun _ _ h => h.1) fun _ => .ret

theorem tr_string (f : Nat) : Tri (Room h) (readString f) (fun _ => Room h) := .seq (tr_binary f) fun _ => .ret

theorem tr_bool : Tri (Room h) readBool (fun _ => Room h) :=
  .bind .get fun _ => .ite (fun _ => .seq (.modify fun _ _ hs => hs.2) fun _ => .ret) fun _ =>
    .seq (tr_byte.pre fun _ _ hs => hs.2) fun _ => .ret

theorem tr_list (f : Nat) : Tri (Room h) (readListBegin f) (fun _ => Room h) := by
  unfold readListBegin
  refine .seq tr_byte fun r => .ite (fun _ => .ret) fun _ => ?_
  have tail : ∀ e : Int × GoErr, Tri (Room h) (if e.2.isSome then pure ((TT.STOP, e.1), protocolFromOsError e.2) else do
        let q := getTType r.1
        if q.2.isSome then return ((q.1, e.1), protocolFromOsError q.2)
        return ((q.1, e.1), none) : P Cmp ((TType × Int) × GoErr)) (fun _ => Room h) :=
    fun e => .ite (fun _ => .ret) fun _ => .ite (fun _ => .ret) fun _ => .ret
  refine .ite (fun _ => ?_) fun _ => ?_
  · exact .seq (.seq (tr_varint32' f) fun _ => .ret) tail
  · exact .seq .ret tail

theorem tr_map (f : Nat) : Tri (Room h) (readMapBegin f) (fun _ => Room h) := by
  unfold readMapBegin
  refine .seq (tr_varint32' f) fun r => .ite (fun _ => .ret) fun _ => ?_
  have tail : ∀ e : Byte × GoErr, Tri (Room h) (if e.2.isSome then pure ((TT.STOP, TT.STOP, r.1.toInt), e.2) else
        pure (((getTType (e.1 >>> 4)).1, (getTType (e.1 &&& 0xf)).1, r.1.toInt), none) :
          P Cmp ((TType × TType × Int) × GoErr)) (fun _ => Room h) := fun e => .ite (fun _ => .ret) fun _ => .ret
  refine .ite (fun _ => ?_) fun _ => ?_
  · exact .seq tr_byte tail
  · exact .seq .ret tail

theorem tr_field (f : Nat) : Tri (Room h) (readFieldBegin f) (fun _ => Room h) := by
  unfold readFieldBegin
  refine .seq tr_byte fun r => .ite (fun _ => .ret) fun _ => .ite (fun _ => .ret) fun _ => .seq (.post .get fun _ _ _ h => h.2) fun u => ?_
  have tail : ∀ e : I16 × GoErr, Tri (Room h) (if e.2.isSome then pure (([], TT.STOP, e.1), e.2) else do
        let q := getTType (r.1 &&& 0x0f)
        if q.2.isSome then return (([], q.1, e.1), protocolFromOsError q.2)
        if isBoolType r.1 then
          P.modify fun s => { s with boolValue := r.1 &&& 0x0f = CT.BOOLEAN_TRUE, boolValueIsNotNull := true }
        P.modify fun s => { s with lastFieldId := e.1.toInt }
        return (([], q.1, e.1), none) : P Cmp ((Bytes × TType × I16) × GoErr)) (fun _ => Room h) := by
    intro e
    refine .ite (fun _ => .ret) fun _ => .ite (fun _ => .ret) fun _ => .ite (fun _ => ?_) fun _ => ?_
    · exact .seq (.modify fun _ _ hs => hs) fun _ => .seq (.modify fun _ _ hs => hs) fun _ => .ret
    · exact .seq (.modify fun _ _ hs => hs) fun _ => .ret
  refine .ite (fun _ => ?_) fun _ => ?_
  · exact .seq (tr_i16 f) tail
  · exact .seq .ret tail

theorem tr_message (f : Nat) : Tri (Room h) (readMessageBegin f) (fun _ => Room h) :=
  .seq tr_byte fun _ => .ite (fun _ => .ret) fun _ => .seq tr_byte fun _ => .ite (fun _ => .ret) fun _ => .ite (fun _ => .ret) fun _ =>
    .seq (tr_varint32' f) fun _ => .ite (fun _ => .ret) fun _ => .seq (tr_string f) fun _ => .ret

theorem tr_structBegin : Tri (Room h) readStructBegin (fun _ => Room (h + 1)) :=
  .seq (.modify fun _ _ hs => ⟨Nat.succ_le_succ hs.1, hs.2⟩) fun _ => .ret

theorem tr_structEnd : Tri (Room (h + 1)) readStructEnd (fun _ => Room (h + 1)) := by
  intro s inp out hs
  obtain ⟨_ | ⟨top, rest⟩, a, b, c, d⟩ := s
  · exact absurd hs.1 (Nat.not_succ_le_zero _)
  · exact ⟨(nomatch ·), fun _ _ _ ht => by cases ht; exact hs⟩

end Cmp

open Cmp

section
variable {f h : Nat} {S : Schema}

theorem tr_skipFields {g : TType → P Cmp GoErr} (hg : ∀ t, Tri (Room h) (g t) (fun _ => Room h)) :
    ∀ n, Tri (Room h) (skipFields (compact f) g n) (fun _ => Room h)
  | 0 => .stuck
  | n + 1 => .seq (tr_field f) fun _ => .ite (fun _ => .ret) fun _ => .seq (hg _) fun _ => .seq .ret fun _ => tr_skipFields hg n

theorem tr_skip (msd : Int) : ∀ n t d h, Tri (Room h) (skip (compact f) msd n t d) (fun _ => Room h)
  | 0, _, _, _ => .stuck
  | n + 1, t, d, h => by
    have ih := tr_skip msd n
    have M : ∀ {α : Type} {m : P Cmp (α × GoErr)}, Tri (Room h) m (fun _ => Room h) → Tri (Room h) (do return (← m).2) (fun _ => Room h) :=
      fun h => .seq h fun _ => .ret
    unfold skip
    refine .ite (fun _ => .ret) fun _ => .ite (fun _ => M tr_bool) fun _ => .ite (fun _ => M tr_byte) fun _ => .ite (fun _ => M (tr_i16 f)) fun _ =>
      .ite (fun _ => M (tr_i32 f)) fun _ => .ite (fun _ => M (tr_i64 f)) fun _ => .ite (fun _ => M tr_double) fun _ =>
      .ite (fun _ => M (tr_string f)) fun _ => .ite (fun _ => ?_) fun _ => .ite (fun _ => ?_) fun _ => .ite (fun _ => ?_) fun _ =>
      .ite (fun _ => ?_) fun _ => .ret
    · exact .seq tr_structBegin fun _ => .ite (fun _ => .pure fun _ _ h => h.pop) fun _ =>
        .seq (tr_skipFields (fun t => ih t _ _) n) fun _ => tr_structEnd.post fun _ _ _ h => h.pop
    · exact .seq (tr_map f) fun _ => .ite (fun _ => .ret) fun _ =>
        .seq (.repeatN (.seq (ih _ _ _) fun _ => .seq (ih _ _ _) fun _ => .ret) _) fun _ => .ret
    · exact .seq (tr_list f) fun _ => .ite (fun _ => .ret) fun _ => .seq (.repeatN (.seq (ih _ _ _) fun _ => .ret) _) fun _ => .ret
    · exact .seq (tr_list f) fun _ => .ite (fun _ => .ret) fun _ => .seq (.repeatN (.seq (ih _ _ _) fun _ => .ret) _) fun _ => .ret

theorem tr_readFields {rd : Bytes → Bytes → Member → P Cmp (Dyn × GoErr)} {sk : TType → P Cmp GoErr} {sd : StructDef}
    (hr : ∀ m ∈ sd.members, ∀ fn sn, Tri (Room h) (rd fn sn m) (fun _ => Room h)) (hs : ∀ t, Tri (Room h) (sk t) (fun _ => Room h)) :
    ∀ n attrs, Tri (Room h) (genReadFields (compact f) rd sk sd n attrs) (fun _ => Room h)
  | 0, _ => .stuck
  | n + 1, attrs => by
    refine .seq (tr_field f) fun a => .ite (fun _ => .ret) fun _ => .ite (fun _ => .ret) fun _ => .seq (B := Room h) ?_ fun _ =>
      .ite (fun _ => .ret) fun _ => .seq .ret fun _ => .ite (fun _ => .ret) fun _ => tr_readFields hr hs n _
    unfold genReadMember
    split
    · rename_i m hm
      have hm : m ∈ sd.members := List.mem_of_find?_eq_some hm
      exact .ite (fun _ => .seq (hr m hm _ _) fun _ => .ret) fun _ => .ite (fun _ => .seq (hs _) fun _ => .ret) fun _ =>
        .seq (hr m hm _ _) fun _ => .ret
    · exact .seq (hs _) fun _ => .ret

theorem tr_body {sd : StructDef} {fields : Attrs → P Cmp (Attrs × GoErr)} (attrs : Attrs)
    (hf : ∀ a, Tri (Room (h + 1)) (fields a) (fun _ => Room (h + 1))) :
    Tri (Room h) (genReadBody (compact f) sd attrs fields) (fun _ => Room h) :=
  .seq tr_structBegin fun _ => .ite (fun _ => .pure fun _ _ h => h.pop) fun _ => .seq (hf _) fun _ =>
    .ite (fun _ => .pure fun _ _ h => h.pop) fun _ => .seq tr_structEnd fun _ => .pure fun _ _ h => h.pop

variable {R : Nat → Prop} (hR : ∀ j, R j → ∀ m ∈ (S.structs j).members, m.ty.Flat R) (L : FloatLib) (mem : List Nat → Nat) (msd : Int)
include hR

theorem tr_readVal : ∀ n path fn sn ty h, ty.Flat R → Tri (Room h) (genReadVal (compact f) S L mem msd n path fn sn ty) (fun _ => Room h)
  | 0, _, _, _, _, _, _ => .stuck
  | n + 1, path, fn, sn, ty, h, hd => by
    cases ty with
    | bool => exact .seq tr_bool fun _ => .ret
    | byte => exact .seq tr_byte fun _ => .ret
    | i16 => exact .seq (tr_i16 f) fun _ => .ret
    | i32 => exact .seq (tr_i32 f) fun _ => .ret
    | i64 => exact .seq (tr_i64 f) fun _ => .ret
    | double => exact .seq tr_double fun _ => .ret
    | string => exact .seq (tr_string f) fun _ => .ret
    | binary => exact .seq (tr_binary f) fun _ => .ret
    | enum k => exact .seq (tr_i32 f) fun _ => .ret
    | struct k =>
      exact .seq (tr_body _ fun a => tr_readFields (fun m hm _ _ => tr_readVal n _ _ _ _ _ (hR k hd m hm)) (fun t => tr_skip msd n t _ _) n _)
        fun _ => .ret
    | list e => exact hd.elim
    | set e => exact hd.elim
    | map k v => exact hd.elim

theorem tr_read (n : Nat) (path : List Nat) (k : Nat) (hk : R k) :
    Tri (Room h) (genRead (compact f) S L mem msd n path (S.structs k)) (fun _ => Room h) :=
  tr_body _ fun _ => tr_readFields (fun m hm _ _ => tr_readVal hR L mem msd n _ _ _ _ _ (hR k hk m hm)) (fun t => tr_skip msd n t _ _) n _

omit hR in
theorem tr_appFields (fuel : Nat) : ∀ n x, Tri (Room h) (appReadFields (compact f) msd fuel n x) (fun _ => Room h)
  | 0, _ => .stuck
  | n + 1, x => by
    refine .seq (tr_field f) fun _ => .ite (fun _ => .ret) fun _ => .ite (fun _ => .ret) fun _ => .seq (B := Room h) ?_ fun _ =>
      .ite (fun _ => .ret) fun _ => .seq .ret fun _ => .ite (fun _ => .ret) fun _ => tr_appFields fuel n _
    exact .ite (fun _ => .seq (tr_string f) fun _ => .ret) fun _ => .ite (fun _ => .seq (tr_i32 f) fun _ => .ret) fun _ =>
      .seq (tr_skip msd fuel _ _ _) fun _ => .ret

omit hR in
theorem tr_app (fuel : Nat) : Tri (Room h) (appRead (compact f) msd fuel) (fun _ => Room h) :=
  .seq tr_structBegin fun _ => .ite (fun _ => .pure fun _ _ h => h.pop) fun _ => .seq (tr_appFields msd fuel fuel _) fun _ =>
    .ite (fun _ => .pure fun _ _ h => h.pop) fun _ => .seq tr_structEnd fun _ => .pure fun _ _ h => h.pop

end

/-! ## Processors and clients -/

theorem Tri.on {get : τ → π} {set : π → τ → τ} {A : π → Bytes → Prop} {B : α → π → Bytes → Prop} {m : P π α} {A' : τ → Bytes → Prop}
    {B' : α → τ → Bytes → Prop} (h : Tri A m B) (ha : ∀ s i, A' s i → A (get s) i)
    (hb : ∀ s i a x j, A' s i → B a x j → B' a (set x s) j) : Tri A' (P.on get set m) B' := by
  intro s inp out hs
  obtain ⟨h1, h2⟩ := h (get s) inp out (ha _ _ hs)
  rw [P.run_on]
  rcases hm : m.run duplex (get s) (inp, out) with ⟨⟨a, x⟩ | _ | _, t⟩
  · rw [putBack_ok]
    exact ⟨(nomatch ·), fun a' s' t' ht => by cases ht; exact hb s inp _ _ _ hs (h2 _ _ _ hm)⟩
  · rw [hm] at h1; exact absurd rfl h1
  · exact ⟨(nomatch ·), fun a' s' t' ht => (nomatch ht)⟩

section
variable {f : Nat} {S : Schema} (L : FloatLib) (mem : List Nat → Nat) (msd : Int) (fuel : Nat)

theorem tr_input {m : P Cmp α} (h : Tri (Room 0) m (fun _ => Room 0)) :
    Tri (fun (_ : Server Cmp ω η) i => NoLong i) (P.input m) (fun _ _ => NoLong) :=
  h.on (fun _ _ h => ⟨Nat.zero_le _, h⟩) fun _ _ _ _ _ _ h => h.2

theorem tr_output {m : P Cmp α} (h : P.Guard (High 0) m (High 0)) :
    Tri (fun (_ : Server ι Cmp η) _ => True) (P.output m) (fun _ _ _ => True) :=
  (Tri.guard (I := fun _ => True) h).on (fun _ _ _ => ⟨Nat.zero_le _, trivial⟩) fun _ _ _ _ _ _ _ => trivial

/-- Processing a request without long varints does not panic. -/
theorem tr_process {sv : Service η} (hv : sv.WellTyped S) (ha : ∀ m ∈ sv.methods, S.Flat m.args) (hr : ∀ m ∈ sv.methods, S.Bare m.result) :
    Tri (fun (_ : Server Cmp Cmp η) i => NoLong i) (process (compact f) (compact f) S L mem msd fuel sv) (fun _ _ _ => True) := by
  refine .seq (tr_input (tr_message f)) fun a => .ite (fun _ => .pure fun _ _ _ => trivial) fun _ => ?_
  obtain ⟨⟨name, t, q⟩, e⟩ := a
  have done : ∀ (name : Bytes) (x : AppExc) (r : Bool × GoErr), Tri (fun (_ : Server Cmp Cmp η) i => NoLong i) (do
      P.output (sendException (compact f) name x q)
      return r) (fun _ _ _ => True) := fun name x r =>
    .seq ((tr_output (g_sendException (f := f) name x q)).pre fun _ _ _ => trivial) fun _ => .ret
  dsimp only
  split
  · exact .seq (tr_input (tr_skip msd fuel _ _ _)) fun _ => .seq (tr_input .ret) fun _ => done _ _ _
  · rename_i m hm
    have hm : m ∈ sv.methods := List.mem_of_find?_eq_some hm
    obtain ⟨R, hk, hR⟩ := ha m hm
    refine .seq (tr_input (tr_read hR L mem msd fuel [] m.args hk)) fun a => ?_
    obtain ⟨a, _ | e⟩ := a
    · refine .seq (tr_input .ret) fun _ => .seq (.post .get fun _ _ _ h => h.2) fun s => .seq (B := fun _ i => NoLong i) (.modify fun _ _ h => h) fun _ => ?_
      have ht := hv.results m hm s.handler a
      rcases hh : sv.handle m s.handler a with ⟨⟨r, _ | e⟩, h'⟩ <;> rw [hh] at ht <;> simp only [hh]
      · refine .seq ((tr_output (g_reply hv.keys m (hr m hm) ?_ fuel q)).pre fun _ _ _ => trivial) fun _ => .ret
        by_cases ho : m.oneway = true
        · intro x hx; rw [hv.oneway m hm ho] at hx; cases hx
        · rw [if_neg ho]; exact ht r h' rfl
      · exact done _ _ _
    · exact .seq (tr_input .ret) fun _ => done _ _ _

/-- A client that has what it needs. -/
def Ready (c : Client Cmp) (i : Bytes) : Prop := c.output.isSome ∧ c.factory.isSome ∧ NoLong i

theorem tr_out {m : P Cmp α} (h : P.Guard (High 0) m (High 0)) : Tri Ready (Client.out m) (fun _ => Ready) := by
  intro c inp out hc
  obtain ⟨o, ho⟩ := Option.isSome_iff_exists.mp hc.1
  obtain ⟨h1, h2⟩ := Tri.guard (I := NoLong) h o inp out ⟨Nat.zero_le _, hc.2.2⟩
  rw [Client.run_out m c o ho]
  rcases hm : m.run duplex o (inp, out) with ⟨⟨a, x⟩ | _ | _, t⟩
  · rw [putBack_ok]
    exact ⟨(nomatch ·), fun a' s' t' ht => by cases ht; exact ⟨rfl, hc.2.1, (h2 _ _ _ hm).2⟩⟩
  · rw [hm] at h1; exact absurd rfl h1
  · exact ⟨(nomatch ·), fun a' s' t' ht => (nomatch ht)⟩

/-- A client that waits for a reply. -/
def Waiting (c : Client Cmp) (i : Bytes) : Prop := c.input.isSome ∧ NoLong i

theorem tr_inp {m : P Cmp α} (h : Tri (Room 0) m (fun _ => Room 0)) : Tri Waiting (Client.inp m) (fun _ => Waiting) := by
  intro c inp out hc
  obtain ⟨o, ho⟩ := Option.isSome_iff_exists.mp hc.1
  obtain ⟨h1, h2⟩ := h o inp out ⟨Nat.zero_le _, hc.2⟩
  rw [Client.run_inp m c o ho]
  rcases hm : m.run duplex o (inp, out) with ⟨⟨a, x⟩ | _ | _, t⟩
  · rw [putBack_ok]
    exact ⟨(nomatch ·), fun a' s' t' ht => by cases ht; exact ⟨rfl, (h2 _ _ _ hm).2⟩⟩
  · rw [hm] at h1; exact absurd rfl h1
  · exact ⟨(nomatch ·), fun a' s' t' ht => (nomatch ht)⟩

theorem tr_recv (m : Method) (hr : S.Flat m.result) :
    Tri (fun c i => (c.input.or c.factory).isSome ∧ NoLong i) (Client.recv (compact f) S L mem msd fuel m) (fun _ _ _ => True) := by
  obtain ⟨R, hk, hR⟩ := hr
  refine .seq (B := Waiting) ?_ fun _ => .seq (tr_inp (tr_message f)) fun _ => .ite (fun _ => .pure fun _ _ _ => trivial) fun _ =>
    .ite (fun _ => ?_) fun _ => ?_
  · intro c inp out hc
    obtain ⟨fc, _ | i, o, q⟩ := c
    · obtain _ | f := fc
      · exact absurd hc.1 (nomatch ·)
      · exact ⟨(nomatch ·), fun _ _ _ ht => by cases ht; exact ⟨rfl, hc.2⟩⟩
    · exact ⟨(nomatch ·), fun _ _ _ ht => by cases ht; exact ⟨rfl, hc.2⟩⟩
  · exact .seq (tr_inp (tr_app msd fuel)) fun _ => .ite (fun _ => .pure fun _ _ _ => trivial) fun _ => .seq (tr_inp .ret) fun _ =>
      .ite (fun _ => .pure fun _ _ _ => trivial) fun _ => .pure fun _ _ _ => trivial
  · exact .seq (.post .get fun _ _ _ h => h.2) fun _ => .ite (fun _ => .pure fun _ _ _ => trivial) fun _ =>
      .seq (tr_inp (tr_read hR L mem msd fuel [] m.result hk)) fun _ => .seq (tr_inp .ret) fun _ => .pure fun _ _ _ => trivial

/-- A call whose reply has no long varints does not panic. -/
theorem tr_call (hK : ∀ k, ∀ m ∈ (S.structs k).members, m.ty.MapKeyFree) (m : Method) (ha : S.Bare m.args) (hr : S.Flat m.result)
    {args : Attrs} (ht : FieldsTyped S (S.structs m.args) args) :
    Tri Ready (Client.call (compact f) S L mem msd fuel m args) (fun _ _ _ => True) := by
  refine .seq (B := Ready) (.seq (B := Ready) ?_ fun _ => .seq (.modify fun _ _ h => h) fun _ => .seq (.post .get fun _ _ _ h => h.2) fun _ =>
    .seq (tr_out (g_message _ _ _)) fun _ => .seq (tr_out (g_write hK ha ht fuel)) fun _ => .seq (tr_out (.ret _)) fun _ => ?_) fun _ =>
    .ite (fun _ => .pure fun _ _ _ => trivial) fun _ => .ite (fun _ => .pure fun _ _ _ => trivial) fun _ =>
    (tr_recv L mem msd fuel m hr).pre fun c _ h => ⟨?_, h.2.2⟩
  · intro c inp out hc
    obtain ⟨_ | fc, i, _ | o, q⟩ := c
    · exact absurd hc.1 (nomatch ·)
    · exact absurd hc.2.1 (nomatch ·)
    · exact absurd hc.1 (nomatch ·)
    · exact ⟨(nomatch ·), fun _ _ _ ht => by cases ht; exact ⟨rfl, rfl, hc.2.2⟩⟩
  · intro c inp out hc
    exact ⟨(nomatch ·), fun _ _ _ ht => by cases ht; exact hc⟩
  · obtain ⟨fc, i, o, q⟩ := c
    have := h.2.1
    cases i
    · exact this
    · rfl

end
end Thrift
