import Verif.Lemmas.Wp
import Verif.Lemmas.BinaryMessage
/-!
# Skip on arbitrary bytes (binary protocol)
-/

namespace Thrift
open BinaryProtocol

/-- No panic. -/
abbrev NoPanic : Bytes → Prop := fun _ => False

namespace Bin

theorem wp_check (n : Int) (s : Bin) (inp : Bytes) :
    Wp (BinaryProtocol.checkReadLength n) s inp (fun _ _ i => i = inp) NoPanic := by
  unfold BinaryProtocol.checkReadLength
  refine Wp.bind (Q := fun _ _ i => i = inp) (Wp.get rfl) fun a s' i hi => ?_
  subst hi
  refine Wp.ite (fun _ => ?_) (fun _ => Wp.pure rfl)
  refine Wp.bind (Q := fun _ _ i' => i' = i) (Wp.modify rfl) fun a s' i hi => ?_
  subst hi
  exact Wp.ite (fun _ => Wp.pure rfl) (fun _ => Wp.pure rfl)

theorem fillBuf_head (n : Nat) : (fillBuf (n + 1) []).headD 0 = 0 := by
  simp [fillBuf, List.replicate_succ]

/-- A failing one-byte read gives a zero byte, a successful read shortens the
input. -/
theorem wp_readAllBuf (n : Nat) (hn : 0 < n) (s : Bin) (inp : Bytes) :
    Wp (readAllBuf n) s inp (fun r _ i => i.length ≤ inp.length ∧ (r.2 = none → i.length < inp.length) ∧
      (n = 1 → r.2 ≠ none → r.1.headD 0 = 0)) NoPanic := by
  unfold readAllBuf
  refine Wp.bind (wp_check n s inp) fun e s' i hi => ?_
  subst hi
  refine Wp.ite (fun he => Wp.pure ?_) (fun he => ?_)
  · refine ⟨Nat.le_refl _, fun h => by simp_all, fun h _ => ?_⟩
    subst h; exact fillBuf_head 0
  · refine Wp.bind (Q := fun r _ j => j.length ≤ i.length ∧ (r.err = none → j.length < i.length) ∧
        (n = 1 → r.err ≠ none → r.buf.headD 0 = 0)) (Wp.readAll ?_ ?_) fun r s'' j h => Wp.pure ?_
    · intro h
      exact ⟨by simp, fun _ => by simp; omega, fun _ h => absurd rfl h⟩
    · intro h
      refine ⟨by simp, fun h => by simp at h, fun h1 _ => ?_⟩
      subst h1
      have : i = [] := by apply List.eq_nil_of_length_eq_zero; omega
      subst this; exact fillBuf_head 0
    · refine ⟨h.1, fun he => h.2.1 ?_, fun h1 he => h.2.2 h1 ?_⟩
      · cases hr : r.err with
        | none => rfl
        | some e =>
          have := isSome_protocolFromOsError' r.err (by simp [hr])
          simp_all
      · intro hr; simp [hr] at he
where
  isSome_protocolFromOsError' (e : GoErr) (h : e.isSome) : (protocolFromOsError e).isSome := by
    cases e with
    | none => simp at h
    | some e => simp only [protocolFromOsError]; split <;> rfl

/-- What the totality proof needs to know about a read call. -/
abbrev Short (inp : Bytes) : α × GoErr → Bin → Bytes → Prop :=
  fun r _ i => i.length ≤ inp.length ∧ (r.2 = none → i.length < inp.length)

theorem wp_byte (s : Bin) (inp : Bytes) : Wp readByte s inp (fun r s' i => Short inp r s' i ∧
    (r.2 ≠ none → r.1 = 0)) NoPanic :=
  Wp.bind (wp_readAllBuf 1 (by omega) s inp) fun _ _ _ h => Wp.pure ⟨⟨h.1, h.2.1⟩, h.2.2 rfl⟩

theorem wp_bool (s : Bin) (inp : Bytes) : Wp readBool s inp (Short inp) NoPanic :=
  Wp.bind (wp_byte s inp) fun _ _ _ h => Wp.pure h.1
theorem wp_i16 (s : Bin) (inp : Bytes) : Wp readI16 s inp (Short inp) NoPanic :=
  Wp.bind (wp_readAllBuf 2 (by omega) s inp) fun _ _ _ h => Wp.pure ⟨h.1, h.2.1⟩
theorem wp_i32 (s : Bin) (inp : Bytes) : Wp readI32 s inp (Short inp) NoPanic :=
  Wp.bind (wp_readAllBuf 4 (by omega) s inp) fun _ _ _ h => Wp.pure ⟨h.1, h.2.1⟩
theorem wp_i64 (s : Bin) (inp : Bytes) : Wp readI64 s inp (Short inp) NoPanic :=
  Wp.bind (wp_readAllBuf 8 (by omega) s inp) fun _ _ _ h => Wp.pure ⟨h.1, h.2.1⟩
theorem wp_double (s : Bin) (inp : Bytes) : Wp readDouble s inp (Short inp) NoPanic :=
  Wp.bind (wp_readAllBuf 8 (by omega) s inp) fun _ _ _ h => Wp.pure ⟨h.1, h.2.1⟩

theorem wp_stringBody (n : Int) (s : Bin) (inp : Bytes) :
    Wp (readStringBody n) s inp (fun _ _ i => i.length ≤ inp.length) NoPanic := by
  unfold readStringBody
  refine Wp.ite (fun _ => Wp.pure (Nat.le_refl _)) (fun _ => ?_)
  refine Wp.bind (wp_check n s inp) fun e s' i hi => ?_
  subst hi
  refine Wp.ite (fun _ => Wp.pure (Nat.le_refl _)) (fun _ => ?_)
  refine Wp.bind (Q := fun _ _ j => j.length ≤ i.length) (Wp.readAll ?_ ?_) fun _ _ _ h => Wp.pure h
  · intro; simp
  · intro; simp

theorem wp_string (s : Bin) (inp : Bytes) : Wp readString s inp (Short inp) NoPanic := by
  unfold readString
  refine Wp.bind (wp_i32 s inp) fun r s' i h => ?_
  refine Wp.ite (fun he => Wp.pure ⟨h.1, fun hn => h.2 hn⟩) (fun he => ?_)
  have h2 := h.2 (by simpa using he)
  exact Wp.mono (wp_stringBody _ _ _) fun _ _ j hj => ⟨by omega, fun _ => by omega⟩

theorem wp_fieldBegin (s : Bin) (inp : Bytes) : Wp readFieldBegin s inp
    (fun r _ i => i.length ≤ inp.length ∧ (r.1.2.1 ≠ TT.STOP → i.length < inp.length)) NoPanic := by
  unfold readFieldBegin
  refine Wp.bind (wp_byte s inp) fun r s' i h => ?_
  obtain ⟨⟨h1, h2⟩, h3⟩ := h
  refine Wp.ite (fun he => Wp.pure ⟨h1, fun hn => ?_⟩) (fun he => ?_)
  · have : r.2 ≠ none := by intro hr; simp [hr] at he
    exact absurd (h3 this) hn
  · have h2' := h2 (by simpa using he)
    refine Wp.ite (fun _ => ?_) (fun _ => Wp.pure ⟨h1, fun _ => h2'⟩)
    exact Wp.bind (wp_i16 _ _) fun _ _ j hj => Wp.pure ⟨by have := hj.1; omega, fun _ => by have := hj.1; omega⟩

theorem wp_mapBegin (s : Bin) (inp : Bytes) : Wp readMapBegin s inp (Short inp) NoPanic := by
  have P : ∀ e : GoErr, e.isSome = true → protocolFromOsError e = none → False := by
    intro e he hn
    have := wp_readAllBuf.isSome_protocolFromOsError' e he
    simp [hn] at this
  unfold readMapBegin
  refine Wp.bind (wp_byte s inp) fun r s' i h => ?_
  obtain ⟨⟨h1, h2⟩, _⟩ := h
  refine Wp.ite (fun he => Wp.pure ⟨h1, fun hn => (P _ he hn).elim⟩) (fun he => ?_)
  have h2 := h2 (by simpa using he)
  refine Wp.bind (wp_byte s' i) fun r s' j h => ?_
  obtain ⟨⟨h3, _⟩, _⟩ := h
  refine Wp.ite (fun he => Wp.pure ⟨by omega, fun hn => by omega⟩) (fun he => ?_)
  refine Wp.bind (wp_i32 s' j) fun r s' l h => ?_
  obtain ⟨h4, _⟩ := h
  exact Wp.ite (fun he => Wp.pure ⟨by omega, fun hn => by omega⟩) (fun he => Wp.pure ⟨by omega, fun hn => by omega⟩)

theorem wp_listBegin (s : Bin) (inp : Bytes) : Wp readListBegin s inp (Short inp) NoPanic := by
  have P : ∀ e : GoErr, e.isSome = true → protocolFromOsError e = none → False := by
    intro e he hn
    have := wp_readAllBuf.isSome_protocolFromOsError' e he
    simp [hn] at this
  unfold readListBegin
  refine Wp.bind (wp_byte s inp) fun r s' i h => ?_
  obtain ⟨⟨h1, h2⟩, _⟩ := h
  refine Wp.ite (fun he => Wp.pure ⟨h1, fun hn => (P _ he hn).elim⟩) (fun he => ?_)
  have h2 := h2 (by simpa using he)
  refine Wp.bind (wp_i32 s' i) fun r s' l h => ?_
  obtain ⟨h4, _⟩ := h
  exact Wp.ite (fun he => Wp.pure ⟨by omega, fun hn => by omega⟩) (fun he => Wp.pure ⟨by omega, fun hn => by omega⟩)

/-- The field loop, given that skipping a value is total on shorter input. -/
theorem wp_skipFields (f : TType → P Bin GoErr) (L : Nat)
    (hf : ∀ t s (i : Bytes), i.length < L → Wp (f t) s i (fun _ _ j => j.length ≤ i.length) NoPanic) :
    ∀ (n : Nat) (s : Bin) (inp : Bytes), inp.length ≤ L → inp.length < n →
      Wp (skipFields binary f n) s inp (fun _ _ i => i.length ≤ inp.length) NoPanic
  | 0, _, _, _, h => by omega
  | n + 1, s, inp, hL, hn => by
    unfold skipFields
    refine Wp.bind (wp_fieldBegin s inp) fun r s' i h => ?_
    refine Wp.ite (fun _ => Wp.pure h.1) (fun ht => ?_)
    have hi := h.2 ht
    refine Wp.bind (hf _ s' i (by omega)) fun _ s' j hj => ?_
    refine Wp.bind (Q := fun _ _ j' => j' = j) (Wp.pure rfl) fun _ s' j' hj' => ?_
    subst hj'
    exact Wp.mono (wp_skipFields f L hf n s' j' (by omega) (by omega)) fun _ _ l hl => by omega

/-- `Skip` returns on every input once the fuel exceeds its length. -/
theorem wp_skip (msd : Int) : ∀ (fuel : Nat) (t : TType) (d : Int) (s : Bin) (inp : Bytes),
    inp.length + 1 < fuel →
    Wp (skip binary msd fuel t d) s inp (fun _ _ i => i.length ≤ inp.length) NoPanic
  | 0, _, _, _, _, h => by omega
  | fuel + 1, t, d, s, inp, hf => by
    have hrec : ∀ t d s (i : Bytes), i.length < inp.length →
        Wp (skip binary msd fuel t d) s i (fun _ _ j => j.length ≤ i.length) NoPanic :=
      fun t d s i hi => wp_skip msd fuel t d s i (by omega)
    have M {α : Type} {m : P Bin (α × GoErr)} (h : Wp m s inp (Short inp) NoPanic) :
        Wp (do return (← m).2) s inp (fun _ _ i => i.length ≤ inp.length) NoPanic :=
      Wp.bind h fun _ _ _ h => Wp.pure h.1
    unfold skip
    refine Wp.ite (fun _ => Wp.pure (Nat.le_refl _)) fun _ => ?_
    refine Wp.ite (fun _ => M (wp_bool s inp)) fun _ => ?_
    refine Wp.ite (fun _ => M (Wp.mono (wp_byte s inp) fun _ _ _ h => h.1)) fun _ => ?_
    refine Wp.ite (fun _ => M (wp_i16 s inp)) fun _ => ?_
    refine Wp.ite (fun _ => M (wp_i32 s inp)) fun _ => ?_
    refine Wp.ite (fun _ => M (wp_i64 s inp)) fun _ => ?_
    refine Wp.ite (fun _ => M (wp_double s inp)) fun _ => ?_
    refine Wp.ite (fun _ => M (wp_string s inp)) fun _ => ?_
    refine Wp.ite (fun _ => ?_) fun _ => Wp.ite (fun _ => ?_) fun _ => Wp.ite (fun _ => ?_) fun _ =>
      Wp.ite (fun _ => ?_) fun _ => Wp.pure (Nat.le_refl _)
    · refine Wp.bind (Q := fun r _ i => r.2 = none ∧ i = inp) (Wp.pure ⟨rfl, rfl⟩) fun r s' i h => ?_
      obtain ⟨hr, rfl⟩ := h
      refine Wp.ite (fun hc => by simp [hr] at hc) fun _ => ?_
      refine Wp.bind (wp_skipFields _ i.length (fun t s j hj => hrec t (d - 1) s j hj) fuel s' i
        (Nat.le_refl _) (by omega)) fun _ s' j hj => Wp.pure hj
    all_goals
      first
        | refine Wp.bind (wp_mapBegin s inp) fun r s' i h => ?_
        | refine Wp.bind (wp_listBegin s inp) fun r s' i h => ?_
      obtain ⟨h1, h2⟩ := h
      refine Wp.ite (fun _ => Wp.pure h1) fun he => ?_
      have h2 := h2 (by simpa using he)
      refine Wp.bind (Wp.repeatN (I := fun _ j => j.length < inp.length) ?_ _ s' i h2)
        fun _ _ _ h => Wp.pure (Nat.le_of_lt h)
      intro s j hj
    · refine Wp.bind (hrec _ _ s j hj) fun _ s' l hl => ?_
      exact Wp.bind (hrec _ _ s' l (by omega)) fun _ s' l' hl' => Wp.pure (by omega)
    · exact Wp.bind (hrec _ _ s j hj) fun _ s' l hl => Wp.pure (by omega)
    · exact Wp.bind (hrec _ _ s j hj) fun _ s' l hl => Wp.pure (by omega)

end Bin
end Thrift
