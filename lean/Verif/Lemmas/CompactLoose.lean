import Verif.Lemmas.CompactForms
import Verif.Lemmas.Memory
import Verif.Lemmas.BinaryAgree
import Verif.Spec.CompactLoose
/-!
# Exactly what the compact reader takes
-/

namespace Thrift.Cmp
open CompactProtocol CompactSpec

/-- The call reports no error: what it answers, the state and the input afterwards. -/
def Gives (m : P Cmp (α × GoErr)) (s : Cmp) (inp : Bytes) (r : α) (s' : Cmp) (rest : Bytes) : Prop :=
  m.run memory s inp = (.ok ((r, none), s'), rest)

theorem Gives.det {m : P Cmp (α × GoErr)} {s s₁ s₂ : Cmp} {inp rest₁ rest₂ : Bytes} {a b : α} (h1 : Gives m s inp a s₁ rest₁)
    (h2 : Gives m s inp b s₂ rest₂) : a = b ∧ s₁ = s₂ ∧ rest₁ = rest₂ := by
  have := h1.symm.trans h2
  simp only [Prod.mk.injEq, Res.ok.injEq, and_true] at this
  exact ⟨this.1.1, this.1.2, this.2⟩

theorem Gives.pure {a r : α} {s s' : Cmp} {inp rest : Bytes} :
    Gives (Pure.pure (a, none)) s inp r s' rest ↔ r = a ∧ s' = s ∧ rest = inp := by
  unfold Gives
  rw [P.run_pure]
  simp only [Prod.mk.injEq, Res.ok.injEq, and_true]
  exact ⟨fun h => ⟨h.1.1.symm, h.1.2.symm, h.2.symm⟩, fun h => ⟨⟨h.1.symm, h.2.1.symm⟩, h.2.2.symm⟩⟩

theorem Gives.map {m : P Cmp (α × GoErr)} {g : α → β} {r : β} {s s' : Cmp} {inp rest : Bytes} :
    Gives (m >>= fun x => Pure.pure (g x.1, x.2)) s inp r s' rest ↔ ∃ a, Gives m s inp a s' rest ∧ r = g a := by
  unfold Gives
  rw [P.run_bind]
  cases hm : m.run memory s inp with
  | mk z t =>
    cases z with
    | panic => simp
    | stuck => simp
    | ok z =>
      obtain ⟨⟨a, e⟩, s₁⟩ := z
      simp only [andThen_ok, P.run_pure, Prod.mk.injEq, Res.ok.injEq]
      constructor
      · rintro ⟨⟨⟨rfl, rfl⟩, rfl⟩, rfl⟩
        exact ⟨a, ⟨⟨⟨rfl, rfl⟩, rfl⟩, rfl⟩, rfl⟩
      · rintro ⟨b, ⟨⟨⟨rfl, rfl⟩, rfl⟩, rfl⟩, rfl⟩
        exact ⟨⟨⟨rfl, rfl⟩, rfl⟩, rfl⟩

theorem Gives.check {m : P Cmp (α × GoErr)} {k : α × GoErr → P Cmp (β × GoErr)} {bad : α × GoErr → β} {w : GoErr → GoErr}
    (hw : ∀ e, e.isSome → (w e).isSome) {r : β} {s s' : Cmp} {inp rest : Bytes} :
    Gives (m >>= fun r => if r.2.isSome then Pure.pure (bad r, w r.2) else k r) s inp r s' rest ↔
      ∃ a s₁ mid, Gives m s inp a s₁ mid ∧ Gives (k (a, none)) s₁ mid r s' rest := by
  unfold Gives
  rw [P.run_bind]
  cases hm : m.run memory s inp with
  | mk z t =>
    cases z with
    | panic => simp
    | stuck => simp
    | ok z =>
      obtain ⟨⟨a, e⟩, s₁⟩ := z
      simp only [andThen_ok]
      cases e with
      | some e =>
        have := hw (some e) rfl
        simp only [Option.isSome_some, if_true, P.run_pure, Prod.mk.injEq, Res.ok.injEq]
        constructor
        · rintro ⟨⟨⟨_, h⟩, _⟩, _⟩
          rw [h] at this; cases this
        · rintro ⟨b, _, _, ⟨⟨⟨_, h⟩, _⟩, _⟩, _⟩
          cases h
      | none =>
        simp only [Option.isSome_none, Bool.false_eq_true, if_false]
        constructor
        · intro h
          exact ⟨a, s₁, t, rfl, h⟩
        · rintro ⟨b, s₂, mid, h1, h2⟩
          simp only [Prod.mk.injEq, Res.ok.injEq, and_true] at h1
          obtain ⟨⟨rfl, rfl⟩, rfl⟩ := h1
          exact h2

theorem isSome_wrap : ∀ e : GoErr, e.isSome → (protocolFromOsError e).isSome := Bin.isSome_wrap

/-! ## Bytes and numbers -/

theorem gives_byte {r : Byte} {s s' : Cmp} {inp rest : Bytes} : Gives readByte s inp r s' rest ↔ s' = s ∧ inp = r :: rest := by
  unfold Gives readByte
  rw [P.run_bind, P.run_readAll, memory_readAll]
  cases inp with
  | nil =>
    constructor
    · intro h
      have h := congrArg Prod.fst h
      simp at h
    · rintro ⟨_, h⟩; exact nomatch h
  | cons b t =>
    simp only [List.length_cons, Nat.le_add_left, if_true, andThen_ok, Option.isSome_none, Bool.false_eq_true, if_false, P.run_pure,
      Prod.mk.injEq, Res.ok.injEq, List.take_succ_cons, List.take_zero, List.headD_cons, List.drop_succ_cons, List.drop_zero, and_true,
      List.cons.injEq]
    exact ⟨fun h => ⟨h.1.2.symm, h.1.1, h.2⟩, fun h => ⟨⟨h.2.1, h.1.symm⟩, h.2.2⟩⟩

/-- A loop that ends has seen a numeral. -/
theorem numeral_of_loop (s : Cmp) : ∀ (fuel shift : Nat) (result r : I64) (s' : Cmp) (inp rest : Bytes),
    Gives (readVarint64Loop fuel shift result) s inp r s' rest → ∃ bs mid, inp = bs ++ mid ∧ IsLeb128 bs ∧ bs.length ≤ fuel
  | 0, _, _, _, _, _, _, h => by cases h
  | fuel + 1, shift, result, r, s', inp, rest, h => by
    obtain ⟨b, s₁, mid, h1, h2⟩ := (Gives.check (w := id) (m := readByte) (bad := fun _ => (0 : I64)) (fun _ h => h)).1 h
    obtain ⟨rfl, rfl⟩ := gives_byte.1 h1
    by_cases hb : b.toNat < 128
    · exact ⟨[b], mid, rfl, hb, by simp⟩
    · have hd := digit_big b (by omega)
      simp only [hd.1, ne_eq, not_true_eq_false, if_false] at h2
      obtain ⟨bs, mid', rfl, h3, h4⟩ := numeral_of_loop s₁ fuel _ _ _ _ _ _ h2
      refine ⟨b :: bs, mid', rfl, ?_, by simp; omega⟩
      cases bs with
      | nil => exact h3.elim
      | cons c bs => exact ⟨by omega, h3⟩

theorem gives_num64 {f : Nat} {r : I64} {s s' : Cmp} {inp rest : Bytes} (hf : inp.length ≤ f) :
    Gives (readVarint64 f) s inp r s' rest ↔ s' = s ∧ ∃ n, Num inp n rest ∧ r = BitVec.ofNat 64 n := by
  constructor
  · intro h
    obtain ⟨bs, mid, rfl, h1, h2⟩ := numeral_of_loop s f 0 0 r s' inp rest h
    obtain ⟨rfl, rfl, rfl⟩ := h.det ((reads_numeral64 bs s f h1 h2).memory mid)
    exact ⟨rfl, _, ⟨bs, ⟨h1, rfl⟩, rfl⟩, rfl⟩
  · rintro ⟨rfl, n, ⟨bs, ⟨h1, rfl⟩, rfl⟩, rfl⟩
    exact (reads_numeral64 bs s' f h1 (by simp at hf; omega)).memory rest

theorem setWidth_ofNat_32 (n : Nat) : (BitVec.ofNat 64 n).setWidth 32 = BitVec.ofNat 32 n := by
  apply BitVec.eq_of_toNat_eq
  rw [BitVec.toNat_setWidth, BitVec.toNat_ofNat, BitVec.toNat_ofNat, Nat.mod_mod_of_dvd _ (by decide)]

theorem gives_num32 {f : Nat} {r : I32} {s s' : Cmp} {inp rest : Bytes} (hf : inp.length ≤ f) :
    Gives (readVarint32 f) s inp r s' rest ↔ s' = s ∧ ∃ n, Num inp n rest ∧ r = BitVec.ofNat 32 n := by
  refine (Gives.map (m := readVarint64 f) (g := fun v => v.setWidth 32)).trans ?_
  constructor
  · rintro ⟨a, h, rfl⟩
    obtain ⟨rfl, n, hn, rfl⟩ := (gives_num64 hf).1 h
    exact ⟨rfl, n, hn, setWidth_ofNat_32 n⟩
  · rintro ⟨rfl, n, hn, rfl⟩
    exact ⟨_, (gives_num64 hf).2 ⟨rfl, n, hn, rfl⟩, (setWidth_ofNat_32 n).symm⟩

theorem unzigzag32 (n : Nat) : zigzagToInt32 (BitVec.ofNat 32 n) = BitVec.ofInt 32 (unzigzag (n % 2 ^ 32)) := by
  rw [← BitVec.ofInt_toInt (x := zigzagToInt32 (BitVec.ofNat 32 n)), zigzagToInt32_toInt, BitVec.toNat_ofNat]

theorem unzigzag64 (n : Nat) : zigzagToInt64 (BitVec.ofNat 64 n) = BitVec.ofInt 64 (unzigzag (n % 2 ^ 64)) := by
  rw [← BitVec.ofInt_toInt (x := zigzagToInt64 (BitVec.ofNat 64 n)), zigzagToInt64_toInt, BitVec.toNat_ofNat]

theorem setWidth_ofInt_16 (z : Int) : (BitVec.ofInt 32 z).setWidth 16 = BitVec.ofInt 16 z := by
  apply BitVec.eq_of_toNat_eq
  rw [BitVec.toNat_setWidth, BitVec.toNat_ofInt, BitVec.toNat_ofInt]
  omega

theorem gives_i32 {f : Nat} {r : I32} {s s' : Cmp} {inp rest : Bytes} (hf : inp.length ≤ f) :
    Gives (readI32 f) s inp r s' rest ↔ s' = s ∧ ∃ n, Num inp n rest ∧ r = BitVec.ofInt 32 (unzigzag (n % 2 ^ 32)) := by
  refine (Gives.check (m := readVarint32 f) (bad := fun _ => (0 : I32)) isSome_wrap).trans ?_
  constructor
  · rintro ⟨a, s₁, mid, h1, h2⟩
    obtain ⟨rfl, n, hn, rfl⟩ := (gives_num32 hf).1 h1
    obtain ⟨rfl, rfl, rfl⟩ := Gives.pure.1 h2
    exact ⟨rfl, n, hn, unzigzag32 n⟩
  · rintro ⟨rfl, n, hn, rfl⟩
    exact ⟨_, s', rest, (gives_num32 hf).2 ⟨rfl, n, hn, rfl⟩, Gives.pure.2 ⟨(unzigzag32 n).symm, rfl, rfl⟩⟩

theorem gives_i64 {f : Nat} {r : I64} {s s' : Cmp} {inp rest : Bytes} (hf : inp.length ≤ f) :
    Gives (readI64 f) s inp r s' rest ↔ s' = s ∧ ∃ n, Num inp n rest ∧ r = BitVec.ofInt 64 (unzigzag (n % 2 ^ 64)) := by
  refine (Gives.check (m := readVarint64 f) (bad := fun _ => (0 : I64)) isSome_wrap).trans ?_
  constructor
  · rintro ⟨a, s₁, mid, h1, h2⟩
    obtain ⟨rfl, n, hn, rfl⟩ := (gives_num64 hf).1 h1
    obtain ⟨rfl, rfl, rfl⟩ := Gives.pure.1 h2
    exact ⟨rfl, n, hn, unzigzag64 n⟩
  · rintro ⟨rfl, n, hn, rfl⟩
    exact ⟨_, s', rest, (gives_num64 hf).2 ⟨rfl, n, hn, rfl⟩, Gives.pure.2 ⟨(unzigzag64 n).symm, rfl, rfl⟩⟩

theorem gives_i16 {f : Nat} {r : I16} {s s' : Cmp} {inp rest : Bytes} (hf : inp.length ≤ f) :
    Gives (readI16 f) s inp r s' rest ↔ s' = s ∧ ∃ n, Num inp n rest ∧ r = BitVec.ofInt 16 (unzigzag (n % 2 ^ 32)) := by
  refine (Gives.map (m := readI32 f) (g := fun v => v.setWidth 16)).trans ?_
  constructor
  · rintro ⟨a, h, rfl⟩
    obtain ⟨rfl, n, hn, rfl⟩ := (gives_i32 hf).1 h
    exact ⟨rfl, n, hn, setWidth_ofInt_16 _⟩
  · rintro ⟨rfl, n, hn, rfl⟩
    exact ⟨_, (gives_i32 hf).2 ⟨rfl, n, hn, rfl⟩, (setWidth_ofInt_16 _).symm⟩

theorem le_surj : ∀ (k : Nat) (bs : Bytes), bs.length = k → ∃ n, n < 256 ^ k ∧ le k n = bs
  | 0, bs, h => ⟨0, by simp, by rw [List.length_eq_zero_iff.1 h]; rfl⟩
  | k + 1, [], h => by simp at h
  | k + 1, b :: bs, h => by
    obtain ⟨m, hm, e⟩ := le_surj k bs (by simpa using h)
    have hb := b.isLt
    refine ⟨b.toNat + 256 * m, ?_, ?_⟩
    · rw [Nat.pow_succ]; omega
    · rw [le, show (b.toNat + 256 * m) / 256 = m by omega, e]
      congr 1
      apply BitVec.eq_of_toNat_eq
      rw [BitVec.toNat_ofNat]; omega

theorem gives_double {r : F64} {s s' : Cmp} {inp rest : Bytes} :
    Gives readDouble s inp r s' rest ↔ s' = s ∧ inp = le 8 r.toNat ++ rest := by
  constructor
  · intro h
    by_cases hl : 8 ≤ inp.length
    · obtain ⟨n, hn, e⟩ := le_surj 8 (inp.take 8) (by rw [List.length_take]; omega)
      have e' : le 8 (BitVec.ofNat 64 n).toNat = inp.take 8 := by
        rw [BitVec.toNat_ofNat, Nat.mod_eq_of_lt (by omega), e]
      have h' := (reads_double (BitVec.ofNat 64 n) s).memory (inp.drop 8)
      rw [e', List.take_append_drop] at h'
      obtain ⟨rfl, rfl, rfl⟩ := h.det h'
      exact ⟨rfl, by rw [e', List.take_append_drop]⟩
    · unfold Gives readDouble at h
      rw [P.run_bind, P.run_readAll, memory_readAll, if_neg hl] at h
      simp only [andThen_ok, Option.isSome_some, if_true, P.run_pure, Prod.mk.injEq, Res.ok.injEq] at h
      have := isSome_wrap (some readAllErr) rfl
      rw [h.1.1.2] at this
      cases this
  · rintro ⟨rfl, rfl⟩
    exact (reads_double r s').memory rest

theorem gives_bool {r : Bool} {s s' : Cmp} {inp rest : Bytes} (hs : Idle s) :
    Gives readBool s inp r s' rest ↔ s' = s ∧ ∃ b : Byte, inp = b :: rest ∧ (r = true ↔ b = 1) := by
  have key : Gives readBool s inp r s' rest ↔ Gives (readByte >>= fun x => Pure.pure (decide (x.1 = CT.BOOLEAN_TRUE), x.2)) s inp r s' rest := by
    unfold Gives readBool
    rw [P.run_bind]
    simp only [P.run_get, andThen_ok]
    rw [if_neg (by rw [hs]; decide)]
  refine (key.trans (Gives.map (m := readByte) (g := fun b => decide (b = CT.BOOLEAN_TRUE)))).trans ?_
  constructor
  · rintro ⟨a, h, rfl⟩
    obtain ⟨rfl, rfl⟩ := gives_byte.1 h
    exact ⟨rfl, a, rfl, by simp⟩
  · rintro ⟨rfl, b, rfl, h⟩
    refine ⟨b, gives_byte.2 ⟨rfl, rfl⟩, ?_⟩
    cases r
    · have : ¬ b = 1 := fun hb => absurd (h.2 hb) (by decide)
      exact (decide_eq_false this).symm
    · exact (decide_eq_true (h.1 rfl)).symm

/-! ## Strings and headers -/

theorem bits32 (n : Nat) : (BitVec.ofNat 32 n = 0 ↔ n % 2 ^ 32 = 0) ∧ ((BitVec.ofNat 32 n).toInt < 0 ↔ ¬ n % 2 ^ 32 < 2 ^ 31) ∧
    (n % 2 ^ 32 < 2 ^ 31 → (BitVec.ofNat 32 n).toInt.toNat = n % 2 ^ 32) ∧ (BitVec.ofNat 32 n).toInt.toNat = count n ∧
    ((BitVec.ofNat 32 n).toInt = 0 ↔ n % 2 ^ 32 = 0) := by
  have h : (BitVec.ofNat 32 n).toInt = if 2 * (n % 2 ^ 32) < 2 ^ 32 then ((n % 2 ^ 32 : Nat) : Int) else ((n % 2 ^ 32 : Nat) : Int) - (2 ^ 32 : Nat) := by
    rw [BitVec.toInt_eq_toNat_cond, BitVec.toNat_ofNat]
  have h0 : BitVec.ofNat 32 n = 0 ↔ n % 2 ^ 32 = 0 := by
    rw [← BitVec.toNat_inj, BitVec.toNat_ofNat]; rfl
  have hl : n % 2 ^ 32 < 2 ^ 32 := Nat.mod_lt _ (by decide)
  unfold count
  generalize n % 2 ^ 32 = k at *
  refine ⟨h0, ?_, ?_, ?_, ?_⟩
  · rw [h]; split <;> omega
  · intro hk; rw [h, if_pos (by omega)]; omega
  · rw [h]; split <;> split <;> omega
  · rw [h]; split <;> omega

theorem gives_readAll (k : Nat) {r : Bytes} {s s' : Cmp} {inp rest : Bytes} :
    Gives (do let r ← P.readAll k; return (r.buf, none)) s inp r s' rest ↔
      s' = s ∧ r.length = k ∧ (inp = r ++ rest ∨ (inp.length < r.length ∧ r = inp ++ List.replicate (r.length - inp.length) 0 ∧ rest = [])) := by
  unfold Gives
  rw [P.run_bind, P.run_readAll, memory_readAll]
  by_cases hk : k ≤ inp.length
  · rw [if_pos hk]
    simp only [andThen_ok, P.run_pure, Prod.mk.injEq, Res.ok.injEq, and_true]
    constructor
    · rintro ⟨⟨rfl, rfl⟩, rfl⟩
      exact ⟨rfl, by rw [List.length_take]; omega, .inl (List.take_append_drop k inp).symm⟩
    · rintro ⟨rfl, rfl, rfl | ⟨h, _⟩⟩
      · simp
      · omega
  · rw [if_neg hk]
    simp only [andThen_ok, P.run_pure, Prod.mk.injEq, Res.ok.injEq, and_true]
    constructor
    · rintro ⟨⟨rfl, rfl⟩, rfl⟩
      have hl : (fillBuf k inp).length = k := by simp [fillBuf]; omega
      refine ⟨rfl, hl, .inr ⟨by omega, ?_, rfl⟩⟩
      rw [hl]; rfl
    · rintro ⟨rfl, rfl, rfl | ⟨h, h2, rfl⟩⟩
      · exact absurd (by simp : r.length ≤ (r ++ rest).length) hk
      · exact ⟨⟨h2.symm, rfl⟩, rfl⟩

theorem gives_binary {f : Nat} {r : Bytes} {s s' : Cmp} {inp rest : Bytes} (hf : inp.length ≤ f) :
    Gives (readBinary f) s inp r s' rest ↔ s' = s ∧ TakesString inp r rest := by
  refine (Gives.check (m := readVarint32 f) (bad := fun _ => ([] : Bytes)) isSome_wrap).trans ?_
  have key : ∀ n s₁ mid, Gives (if BitVec.ofNat 32 n = 0 then Pure.pure ([], none) else
      if (BitVec.ofNat 32 n).toInt < 0 then P.panic else do
        let r ← P.readAll (BitVec.ofNat 32 n).toInt.toNat
        return (r.buf, none)) s₁ mid r s' rest ↔ s' = s₁ ∧ n % 2 ^ 32 < 2 ^ 31 ∧ r.length = n % 2 ^ 32 ∧
          (mid = r ++ rest ∨ (mid.length < r.length ∧ r = mid ++ List.replicate (r.length - mid.length) 0 ∧ rest = [])) := by
    intro n s₁ mid
    obtain ⟨h1, h2, h3, _⟩ := bits32 n
    by_cases h0 : n % 2 ^ 32 = 0
    · rw [if_pos (h1.2 h0), Gives.pure, h0]
      constructor
      · rintro ⟨rfl, rfl, rfl⟩
        exact ⟨rfl, by decide, rfl, .inl rfl⟩
      · rintro ⟨rfl, _, hr, h⟩
        obtain rfl := List.length_eq_zero_iff.1 hr
        rcases h with rfl | ⟨h, _⟩
        · exact ⟨rfl, rfl, rfl⟩
        · simp at h
    · rw [if_neg (fun h => h0 (h1.1 h))]
      by_cases hn : n % 2 ^ 32 < 2 ^ 31
      · rw [if_neg (fun h => h2.1 h hn), h3 hn, gives_readAll]
        constructor
        · rintro ⟨a, b, c⟩; exact ⟨a, hn, b, c⟩
        · rintro ⟨a, _, b, c⟩; exact ⟨a, b, c⟩
      · rw [if_pos (h2.2 hn)]
        constructor
        · intro h; cases h
        · rintro ⟨_, h, _⟩; exact absurd h hn
  constructor
  · rintro ⟨a, s₁, mid, h1, h2⟩
    obtain ⟨rfl, n, hn, rfl⟩ := (gives_num32 hf).1 h1
    obtain ⟨rfl, h3, h4, h5⟩ := (key n s₁ mid).1 h2
    exact ⟨rfl, n, mid, hn, h3, h4, h5⟩
  · rintro ⟨rfl, n, mid, hn, h⟩
    exact ⟨_, s', mid, (gives_num32 hf).2 ⟨rfl, n, hn, rfl⟩, (key n s' mid).2 ⟨rfl, h⟩⟩

theorem gives_string {f : Nat} {r : Bytes} {s s' : Cmp} {inp rest : Bytes} (hf : inp.length ≤ f) :
    Gives (readString f) s inp r s' rest ↔ s' = s ∧ TakesString inp r rest := by
  rw [← gives_binary hf]
  unfold Gives readString
  rw [P.run_bind]
  cases hm : (readBinary f).run memory s inp with
  | mk z t =>
    cases z with
    | panic => simp
    | stuck => simp
    | ok z =>
      obtain ⟨⟨a, e⟩, s₁⟩ := z
      simp only [andThen_ok, P.run_pure, Prod.mk.injEq, Res.ok.injEq]
      cases e with
      | none => simp [protocolFromOsError]
      | some e =>
        have := isSome_wrap (some e) rfl
        constructor
        · rintro ⟨⟨⟨_, h⟩, _⟩, _⟩; rw [h] at this; cases this
        · rintro ⟨⟨⟨_, h⟩, _⟩, _⟩; cases h

/-- The types of the sixteen codes. -/
theorem types_of_codes : ∀ b : Byte,
    (low b = 0 ↔ b &&& 0x0f = TT.STOP) ∧ (high b = ((b >>> 4) &&& 0x0f).toNat) ∧
    (getTType b = getTType (b &&& 0x0f)) ∧ (getTType (b &&& 0xf) = getTType (BitVec.ofNat 8 (low b))) ∧
    (getTType (b >>> 4) = getTType (BitVec.ofNat 8 (high b))) ∧
    (((b &&& 0xf0) >>> 4).setWidth 16 = BitVec.ofNat 16 (high b)) ∧
    (isBoolType b = decide (low b = 1 ∨ low b = 2)) ∧ ((b &&& 0x0f = CT.BOOLEAN_TRUE) ↔ low b = 1) := by
  unfold low high
  decide +kernel

theorem codes : ∀ c : Fin 16, ∀ t : Byte,
    ((IsWireType t ∧ c.val = typeCode t) ↔ (getTType (BitVec.ofNat 8 c.val) = (t, none) ∧ t ≠ 0)) := by
  decide +kernel

theorem codes_or : ∀ c : Fin 16, (c.val = 0 ∧ getTType (BitVec.ofNat 8 c.val) = (0, none)) ∨
    (c.val ≠ 0 ∧ (getTType (BitVec.ofNat 8 c.val)).1 ≠ 0 ∧ (getTType (BitVec.ofNat 8 c.val)).2 = none) ∨
    (c.val ≠ 0 ∧ (getTType (BitVec.ofNat 8 c.val)).1 = 0 ∧ (getTType (BitVec.ofNat 8 c.val)).2.isSome) := by
  decide +kernel

theorem codeOf_iff {c : Nat} (hc : c < 16) (t : Byte) : CodeOf c t ↔ getTType (BitVec.ofNat 8 c) = (t, none) ∧ t ≠ 0 := codes ⟨c, hc⟩ t

theorem elemType_iff {c : Nat} (hc : c < 16) (t : Byte) : ElemType c t ↔ getTType (BitVec.ofNat 8 c) = (t, none) := by
  unfold ElemType
  rw [codeOf_iff hc]
  have := codes_or ⟨c, hc⟩
  simp only at this
  rcases this with ⟨h1, h2⟩ | ⟨h1, h2, h3⟩ | ⟨h1, h2, h3⟩
  · rw [h2]
    constructor
    · rintro (⟨_, rfl⟩ | ⟨h, _⟩)
      · rfl
      · exact h
    · intro h
      exact .inl ⟨h1, ((Prod.mk.injEq ..).mp h).1.symm⟩
  · constructor
    · rintro (⟨h, _⟩ | ⟨h, _⟩)
      · exact absurd h h1
      · exact h
    · intro h
      exact .inr ⟨h, by rw [h] at h2; exact h2⟩
  · constructor
    · rintro (⟨h, _⟩ | ⟨h, _⟩)
      · exact absurd h h1
      · exact h
    · intro h; rw [h] at h3; cases h3

theorem entryType_iff {c : Nat} (hc : c < 16) (t : Byte) : EntryType c t ↔ t = (getTType (BitVec.ofNat 8 c)).1 := by
  unfold EntryType
  simp only [codeOf_iff hc]
  have := codes_or ⟨c, hc⟩
  simp only at this
  generalize getTType (BitVec.ofNat 8 c) = x at this ⊢
  rcases x with ⟨u, e⟩
  simp only at this ⊢
  rcases this with ⟨_, h2⟩ | ⟨_, h2, rfl⟩ | ⟨_, rfl, h3⟩
  · simp only [Prod.mk.injEq] at h2 ⊢
    obtain ⟨rfl, rfl⟩ := h2
    constructor
    · rintro (⟨_, h⟩ | ⟨⟨h, _⟩, _⟩)
      · exact h
      · exact h.symm
    · rintro rfl
      exact .inl ⟨fun ⟨u, ⟨h, _⟩, h'⟩ => h' h.symm, rfl⟩
  · simp only [Prod.mk.injEq, and_true]
    constructor
    · rintro (⟨h, _⟩ | ⟨rfl, _⟩)
      · exact absurd ⟨u, rfl, h2⟩ h
      · rfl
    · rintro rfl
      exact .inr ⟨rfl, h2⟩
  · cases e with
    | none => cases h3
    | some e => simp

theorem Gives.mapX {m : P Cmp (α × GoErr)} {g : α × GoErr → β} {r : β} {s s' : Cmp} {inp rest : Bytes} :
    Gives (m >>= fun x => Pure.pure (g x, x.2)) s inp r s' rest ↔ ∃ a, Gives m s inp a s' rest ∧ r = g (a, none) := by
  unfold Gives
  rw [P.run_bind]
  cases hm : m.run memory s inp with
  | mk z t =>
    cases z with
    | panic => simp
    | stuck => simp
    | ok z =>
      obtain ⟨⟨a, e⟩, s₁⟩ := z
      simp only [andThen_ok, P.run_pure, Prod.mk.injEq, Res.ok.injEq]
      constructor
      · rintro ⟨⟨⟨rfl, rfl⟩, rfl⟩, rfl⟩
        exact ⟨a, ⟨⟨⟨rfl, rfl⟩, rfl⟩, rfl⟩, rfl⟩
      · rintro ⟨b, ⟨⟨⟨rfl, rfl⟩, rfl⟩, rfl⟩, rfl⟩
        exact ⟨⟨⟨rfl, rfl⟩, rfl⟩, rfl⟩

theorem low_lt (b : Byte) : low b < 16 := Nat.mod_lt _ (by decide)
theorem high_lt (b : Byte) : high b < 16 := by have := b.isLt; unfold high; omega

theorem listBegin_eq (f : Nat) : readListBegin f = (readByte >>= fun r => if r.2.isSome then Pure.pure ((TT.STOP, (0 : Int)), r.2)
    else (if (((r.1 >>> 4) &&& 0x0f).toNat : Int) = 15 then
        (do let (size2, e) ← readVarint32 f
            return (if e.isSome then (((r.1 >>> 4) &&& 0x0f).toNat : Int) else size2.toInt, e))
        else Pure.pure ((((r.1 >>> 4) &&& 0x0f).toNat : Int), none)) >>= fun x =>
      if x.2.isSome then Pure.pure ((TT.STOP, x.1), protocolFromOsError x.2)
      else if (getTType r.1).2.isSome then Pure.pure (((getTType r.1).1, x.1), protocolFromOsError (getTType r.1).2)
        else Pure.pure (((getTType r.1).1, x.1), none)) := by
  unfold readListBegin
  congr
  funext r
  rcases r with ⟨b, e⟩
  simp only
  split
  · rfl
  · split <;> rfl

theorem mapBegin_eq (f : Nat) : readMapBegin f = (readVarint32 f >>= fun r =>
    if r.2.isSome then Pure.pure ((TT.STOP, TT.STOP, r.1.toInt), protocolFromOsError r.2)
    else (if r.1.toInt ≠ 0 then readByte else Pure.pure (TT.STOP, none)) >>= fun x =>
      if x.2.isSome then Pure.pure ((TT.STOP, TT.STOP, r.1.toInt), x.2)
      else Pure.pure (((getTType (x.1 >>> 4)).1, (getTType (x.1 &&& 0xf)).1, r.1.toInt), none)) := by
  unfold readMapBegin
  congr
  funext r
  rcases r with ⟨b, e⟩
  simp only
  split
  · rfl
  · split <;> rfl

theorem gives_listBegin {f : Nat} {t : TType} {z : Int} {s s' : Cmp} {inp rest : Bytes} (hf : inp.length ≤ f) :
    Gives (readListBegin f) s inp (t, z) s' rest ↔ s' = s ∧ ∃ b mid, inp = b :: mid ∧ ElemType (low b) t ∧
      ((high b ≠ 15 ∧ z = high b ∧ rest = mid) ∨ (high b = 15 ∧ ∃ n, Num mid n rest ∧ z = (BitVec.ofNat 32 n).toInt)) := by
  rw [listBegin_eq]
  refine (Gives.check (w := id) (m := readByte) (bad := fun _ => (TT.STOP, (0 : Int))) (fun _ h => h)).trans ?_
  have size : ∀ (b : Byte) (s₁ : Cmp) (mid : Bytes), mid.length ≤ f → ∀ (k : Int) (s₂ : Cmp) (mid' : Bytes),
      Gives (if (((b >>> 4) &&& 0x0f).toNat : Int) = 15 then
        (do let (size2, e) ← readVarint32 f
            return (if e.isSome then (((b >>> 4) &&& 0x0f).toNat : Int) else size2.toInt, e))
        else Pure.pure ((((b >>> 4) &&& 0x0f).toNat : Int), none)) s₁ mid k s₂ mid' ↔
      s₂ = s₁ ∧ ((high b ≠ 15 ∧ k = high b ∧ mid' = mid) ∨ (high b = 15 ∧ ∃ n, Num mid n mid' ∧ k = (BitVec.ofNat 32 n).toInt)) := by
    intro b s₁ mid hm k s₂ mid'
    rw [← (types_of_codes b).2.1]
    by_cases hh : high b = 15
    · rw [if_pos (by omega)]
      refine (Gives.mapX (m := readVarint32 f) (g := fun x => if x.2.isSome then ((high b : Nat) : Int) else x.1.toInt)).trans ?_
      constructor
      · rintro ⟨a, h, rfl⟩
        obtain ⟨rfl, n, hn, rfl⟩ := (gives_num32 hm).1 h
        exact ⟨rfl, .inr ⟨hh, n, hn, rfl⟩⟩
      · rintro ⟨rfl, ⟨h, _⟩ | ⟨_, n, hn, rfl⟩⟩
        · exact absurd hh h
        · exact ⟨_, (gives_num32 hm).2 ⟨rfl, n, hn, rfl⟩, rfl⟩
    · rw [if_neg (by omega), Gives.pure]
      constructor
      · rintro ⟨rfl, rfl, rfl⟩
        exact ⟨rfl, .inl ⟨hh, rfl, rfl⟩⟩
      · rintro ⟨rfl, ⟨_, rfl, rfl⟩ | ⟨h, _⟩⟩
        · exact ⟨rfl, rfl, rfl⟩
        · exact absurd h hh
  have last : ∀ (b : Byte) (k : Int) (s₁ : Cmp) (mid : Bytes),
      Gives (if (getTType b).2.isSome then Pure.pure (((getTType b).1, k), protocolFromOsError (getTType b).2)
        else Pure.pure (((getTType b).1, k), none)) s₁ mid (t, z) s' rest ↔ s' = s₁ ∧ rest = mid ∧ z = k ∧ ElemType (low b) t := by
    intro b k s₁ mid
    rw [elemType_iff (low_lt b), ← (types_of_codes b).2.2.2.1, ← (types_of_codes b).2.2.1]
    rcases getTType b with ⟨u, e⟩
    cases e with
    | none =>
      simp only [Option.isSome_none, Bool.false_eq_true, if_false, Gives.pure, Prod.mk.injEq, and_true]
      exact ⟨fun h => ⟨h.2.1, h.2.2, h.1.2, h.1.1.symm⟩, fun h => ⟨⟨h.2.2.2.symm, h.2.2.1⟩, h.1, h.2.1⟩⟩
    | some e =>
      simp only [Option.isSome_some, if_true, Prod.mk.injEq]
      constructor
      · intro h
        unfold Gives at h
        rw [P.run_pure] at h
        have := isSome_wrap (some e) rfl
        simp only [Prod.mk.injEq, Res.ok.injEq] at h
        rw [h.1.1.2] at this; cases this
      · rintro ⟨_, _, _, _, h⟩; cases h
  constructor
  · rintro ⟨b, s₁, mid, h1, h2⟩
    obtain ⟨rfl, rfl⟩ := gives_byte.1 h1
    have hm : mid.length ≤ f := by simp at hf; omega
    obtain ⟨k, s₂, mid', h3, h4⟩ := (Gives.check (bad := fun x => (TT.STOP, x.1)) isSome_wrap).1 h2
    obtain ⟨rfl, h5⟩ := (size b s₁ mid hm k s₂ mid').1 h3
    obtain ⟨rfl, rfl, rfl, h6⟩ := (last b k s₂ mid').1 h4
    exact ⟨rfl, b, mid, rfl, h6, h5⟩
  · rintro ⟨rfl, b, mid, rfl, h1, h2⟩
    have hm : mid.length ≤ f := by simp at hf; omega
    exact ⟨b, s', mid, gives_byte.2 ⟨rfl, rfl⟩, (Gives.check (bad := fun x => (TT.STOP, x.1)) isSome_wrap).2
      ⟨z, s', rest, (size b s' mid hm z s' rest).2 ⟨rfl, h2⟩, (last b z s' rest).2 ⟨rfl, rfl, rfl, h1⟩⟩⟩

theorem gives_mapBegin {f : Nat} {kt vt : TType} {z : Int} {s s' : Cmp} {inp rest : Bytes} (hf : inp.length ≤ f) :
    Gives (readMapBegin f) s inp (kt, vt, z) s' rest ↔ s' = s ∧ ∃ n mid, Num inp n mid ∧ z = (BitVec.ofNat 32 n).toInt ∧
      ((n % 2 ^ 32 = 0 ∧ kt = 0 ∧ vt = 0 ∧ rest = mid) ∨
        (n % 2 ^ 32 ≠ 0 ∧ ∃ b, mid = b :: rest ∧ EntryType (high b) kt ∧ EntryType (low b) vt)) := by
  rw [mapBegin_eq]
  refine (Gives.check (m := readVarint32 f) (bad := fun x => (TT.STOP, TT.STOP, x.1.toInt)) isSome_wrap).trans ?_
  have step : ∀ (n : Nat) (s₁ : Cmp) (mid : Bytes) (b : Byte) (s₂ : Cmp) (mid' : Bytes),
      Gives (if (BitVec.ofNat 32 n).toInt ≠ 0 then readByte else Pure.pure (TT.STOP, none)) s₁ mid b s₂ mid' ↔
        s₂ = s₁ ∧ ((n % 2 ^ 32 = 0 ∧ b = 0 ∧ mid' = mid) ∨ (n % 2 ^ 32 ≠ 0 ∧ mid = b :: mid')) := by
    intro n s₁ mid b s₂ mid'
    have h := (bits32 n).2.2.2.2
    by_cases h0 : n % 2 ^ 32 = 0
    · rw [if_neg (fun hc => hc (h.2 h0)), Gives.pure]
      constructor
      · rintro ⟨rfl, rfl, rfl⟩; exact ⟨rfl, .inl ⟨h0, rfl, rfl⟩⟩
      · rintro ⟨rfl, ⟨_, rfl, rfl⟩ | ⟨hc, _⟩⟩
        · exact ⟨rfl, rfl, rfl⟩
        · exact absurd h0 hc
    · rw [if_pos (fun hc => h0 (h.1 hc)), gives_byte]
      constructor
      · rintro ⟨rfl, rfl⟩; exact ⟨rfl, .inr ⟨h0, rfl⟩⟩
      · rintro ⟨rfl, ⟨hc, _⟩ | ⟨_, rfl⟩⟩
        · exact absurd hc h0
        · exact ⟨rfl, rfl⟩
  have types : ∀ b : Byte, (EntryType (high b) kt ↔ kt = (getTType (b >>> 4)).1) ∧ (EntryType (low b) vt ↔ vt = (getTType (b &&& 0xf)).1) := by
    intro b
    rw [entryType_iff (high_lt b), entryType_iff (low_lt b), (types_of_codes b).2.2.2.1, (types_of_codes b).2.2.2.2.1]
    exact ⟨Iff.rfl, Iff.rfl⟩
  constructor
  · rintro ⟨a, s₁, mid, h1, h2⟩
    obtain ⟨rfl, n, hn, rfl⟩ := (gives_num32 hf).1 h1
    obtain ⟨b, s₂, mid', h3, h4⟩ := (Gives.check (w := id) (bad := fun _ => (TT.STOP, TT.STOP, (BitVec.ofNat 32 n).toInt)) (fun _ h => h)).1 h2
    obtain ⟨rfl, h5⟩ := (step n s₁ mid b s₂ mid').1 h3
    obtain ⟨e, rfl, rfl⟩ := Gives.pure.1 h4
    simp only [Prod.mk.injEq] at e
    obtain ⟨rfl, rfl, rfl⟩ := e
    refine ⟨rfl, n, mid, hn, rfl, ?_⟩
    rcases h5 with ⟨h0, rfl, rfl⟩ | ⟨h0, rfl⟩
    · exact .inl ⟨h0, rfl, rfl, rfl⟩
    · exact .inr ⟨h0, b, rfl, (types b).1.2 rfl, (types b).2.2 rfl⟩
  · rintro ⟨rfl, n, mid, hn, rfl, h⟩
    refine ⟨_, s', mid, (gives_num32 hf).2 ⟨rfl, n, hn, rfl⟩, ?_⟩
    refine (Gives.check (w := id) (bad := fun _ => (TT.STOP, TT.STOP, (BitVec.ofNat 32 n).toInt)) (fun _ h => h)).2 ?_
    rcases h with ⟨h0, rfl, rfl, rfl⟩ | ⟨h0, b, rfl, h1, h2⟩
    · exact ⟨0, s', rest, (step n s' rest 0 s' rest).2 ⟨rfl, .inl ⟨h0, rfl, rfl⟩⟩, Gives.pure.2 ⟨rfl, rfl, rfl⟩⟩
    · refine ⟨b, s', rest, (step n s' _ b s' rest).2 ⟨rfl, .inr ⟨h0, rfl⟩⟩, Gives.pure.2 ⟨?_, rfl, rfl⟩⟩
      rw [(types b).1.1 h1, (types b).2.1 h2]

theorem fieldBegin_eq (f : Nat) : readFieldBegin f = (readByte >>= fun r => if r.2.isSome then Pure.pure ((([] : Bytes), TT.STOP, (0 : I16)), r.2)
    else if r.1 &&& 0x0f = TT.STOP then Pure.pure (([], TT.STOP, 0), none)
    else P.get >>= fun s =>
      (if (((r.1 &&& 0xf0) >>> 4).setWidth 16 : I16) = 0 then readI16 f
        else Pure.pure (BitVec.ofInt 16 s.lastFieldId + ((r.1 &&& 0xf0) >>> 4).setWidth 16, none)) >>= fun x =>
      if x.2.isSome then Pure.pure (([], TT.STOP, x.1), x.2)
      else if (getTType (r.1 &&& 0x0f)).2.isSome then Pure.pure (([], (getTType (r.1 &&& 0x0f)).1, x.1), protocolFromOsError (getTType (r.1 &&& 0x0f)).2)
      else P.modify (fun s => { s with
          boolValue := if isBoolType r.1 then decide (r.1 &&& 0x0f = CT.BOOLEAN_TRUE) else s.boolValue
          boolValueIsNotNull := if isBoolType r.1 then true else s.boolValueIsNotNull
          lastFieldId := x.1.toInt }) >>= fun _ => Pure.pure (([], (getTType (r.1 &&& 0x0f)).1, x.1), none)) := by
  unfold readFieldBegin
  congr
  funext r
  rcases r with ⟨b, e⟩
  simp only
  split
  · rfl
  · split
    · rfl
    · congr
      funext s
      split <;> (congr; funext x; rcases x with ⟨i, e⟩; simp only; split; · rfl) <;> (split; · rfl) <;> (split <;> rfl)

theorem addNibble (last : Int) (k : Nat) : BitVec.ofInt 16 last + BitVec.ofNat 16 k = BitVec.ofInt 16 (last + k) := by
  rw [BitVec.ofInt_add, BitVec.ofInt_natCast]

theorem gives_fieldBegin {f : Nat} {name : Bytes} {t : TType} {id : I16} {s s' : Cmp} {inp rest : Bytes} (hf : inp.length ≤ f) :
    Gives (readFieldBegin f) s inp (name, t, id) s' rest ↔ name = [] ∧
      ((t = 0 ∧ id = 0 ∧ s' = s ∧ ∃ b, inp = b :: rest ∧ low b = 0) ∨
        ∃ c, FieldStart s.lastFieldId inp c id rest ∧ CodeOf c t ∧ s' = s.readField id c) := by
  rw [fieldBegin_eq]
  refine (Gives.check (w := _root_.id) (m := readByte) (bad := fun _ => (([] : Bytes), TT.STOP, (0 : I16))) (fun _ h => h)).trans ?_
  have getI : ∀ (b : Byte) (s₁ : Cmp) (mid : Bytes), mid.length ≤ f → ∀ (i : I16) (s₂ : Cmp) (mid' : Bytes),
      Gives (if (((b &&& 0xf0) >>> 4).setWidth 16 : I16) = 0 then readI16 f
        else Pure.pure (BitVec.ofInt 16 s₁.lastFieldId + ((b &&& 0xf0) >>> 4).setWidth 16, none)) s₁ mid i s₂ mid' ↔
      s₂ = s₁ ∧ ((high b ≠ 0 ∧ i = BitVec.ofInt 16 (s₁.lastFieldId + high b) ∧ mid' = mid) ∨
        (high b = 0 ∧ ∃ n, Num mid n mid' ∧ i = BitVec.ofInt 16 (unzigzag (n % 2 ^ 32)))) := by
    intro b s₁ mid hm i s₂ mid'
    rw [(types_of_codes b).2.2.2.2.2.1, addNibble]
    have hz : BitVec.ofNat 16 (high b) = 0 ↔ high b = 0 := by
      have := high_lt b
      rw [← BitVec.toNat_inj, BitVec.toNat_ofNat, Nat.mod_eq_of_lt (by omega)]; rfl
    by_cases hh : high b = 0
    · rw [if_pos (hz.2 hh), gives_i16 hm]
      constructor
      · rintro ⟨rfl, h⟩; exact ⟨rfl, .inr ⟨hh, h⟩⟩
      · rintro ⟨rfl, ⟨h, _⟩ | ⟨_, h⟩⟩
        · exact absurd hh h
        · exact ⟨rfl, h⟩
    · rw [if_neg (fun h => hh (hz.1 h)), Gives.pure]
      constructor
      · rintro ⟨rfl, rfl, rfl⟩; exact ⟨rfl, .inl ⟨hh, rfl, rfl⟩⟩
      · rintro ⟨rfl, ⟨_, rfl, rfl⟩ | ⟨h, _⟩⟩
        · exact ⟨rfl, rfl, rfl⟩
        · exact absurd h hh
  have last : ∀ (b : Byte) (i : I16) (s₁ : Cmp) (mid : Bytes), low b ≠ 0 →
      (Gives (if (getTType (b &&& 0x0f)).2.isSome then Pure.pure (([], (getTType (b &&& 0x0f)).1, i), protocolFromOsError (getTType (b &&& 0x0f)).2)
      else P.modify (fun s => { s with
          boolValue := if isBoolType b then decide (b &&& 0x0f = CT.BOOLEAN_TRUE) else s.boolValue
          boolValueIsNotNull := if isBoolType b then true else s.boolValueIsNotNull
          lastFieldId := i.toInt }) >>= fun _ => Pure.pure (([], (getTType (b &&& 0x0f)).1, i), none)) s₁ mid (name, t, id) s' rest ↔
        name = [] ∧ id = i ∧ rest = mid ∧ CodeOf (low b) t ∧ s' = s₁.readField i (low b)) := by
    intro b i s₁ mid hb
    have hx : (b &&& 0x0f = CT.BOOLEAN_TRUE) = (low b = 1) := propext (types_of_codes b).2.2.2.2.2.2.2
    rw [codeOf_iff (low_lt b), ← (types_of_codes b).2.2.2.1, show (b &&& 0x0f : Byte) = b &&& 0xf from rfl]
    simp only [show (b &&& 0xf = CT.BOOLEAN_TRUE) = (low b = 1) from hx, (types_of_codes b).2.2.2.2.2.2.1]
    have ho := codes_or ⟨low b, low_lt b⟩
    have hne := codes ⟨low b, low_lt b⟩
    have h2 : low b = 2 → (getTType (b &&& 0xf)).2.isSome := by
      intro h; rw [(types_of_codes b).2.2.2.1, h]; rfl
    simp only at ho
    rw [← (types_of_codes b).2.2.2.1] at ho
    rcases ho with ⟨h, _⟩ | ⟨_, h3, h4⟩ | ⟨_, h3, h4⟩
    · exact absurd h hb
    · generalize getTType (b &&& 0xf) = x at *
      rcases x with ⟨u, e⟩
      simp only at h3 h4
      subst h4
      have h2' : ¬ low b = 2 := fun h => absurd (h2 h) (by simp)
      simp only [Option.isSome_none, Bool.false_eq_true, if_false, h2', or_false]
      unfold Gives
      simp only [P.run_bind, P.run_modify, andThen_ok, P.run_pure, Prod.mk.injEq, Res.ok.injEq, and_true]
      have hs : ({ s₁ with
          boolValue := if decide (low b = 1) = true then decide (low b = 1) else s₁.boolValue
          boolValueIsNotNull := if decide (low b = 1) = true then true else s₁.boolValueIsNotNull
          lastFieldId := i.toInt } : Cmp) = s₁.readField i (low b) := by
        unfold readField
        by_cases h1 : low b = 1 <;> simp [h1]
      rw [hs]
      constructor
      · rintro ⟨⟨⟨rfl, rfl, rfl⟩, rfl⟩, rfl⟩; exact ⟨rfl, rfl, rfl, ⟨rfl, h3⟩, rfl⟩
      · rintro ⟨rfl, rfl, rfl, ⟨rfl, _⟩, rfl⟩; exact ⟨⟨⟨rfl, rfl, rfl⟩, rfl⟩, rfl⟩
    · rw [if_pos h4]
      constructor
      · intro h
        unfold Gives at h
        rw [P.run_pure] at h
        have := isSome_wrap _ h4
        simp only [Prod.mk.injEq, Res.ok.injEq] at h
        rw [h.1.1.2] at this; cases this
      · rintro ⟨_, _, _, ⟨h, _⟩, _⟩; rw [h] at h4; cases h4
  have getS : ∀ (k : Cmp → P Cmp ((Bytes × TType × I16) × GoErr)) (s₁ : Cmp) (mid : Bytes),
      Gives (P.get >>= k) s₁ mid (name, t, id) s' rest ↔ Gives (k s₁) s₁ mid (name, t, id) s' rest := by
    intro k s₁ mid; unfold Gives; rw [P.run_bind, P.run_get, andThen_ok]
  constructor
  · rintro ⟨b, s₁, mid, h1, h2⟩
    obtain ⟨rfl, rfl⟩ := gives_byte.1 h1
    have hm : mid.length ≤ f := by simp at hf; omega
    by_cases h0 : low b = 0
    · rw [if_pos ((types_of_codes b).1.1 h0)] at h2
      obtain ⟨e, rfl, rfl⟩ := Gives.pure.1 h2
      simp only [Prod.mk.injEq] at e
      obtain ⟨rfl, rfl, rfl⟩ := e
      exact ⟨rfl, .inl ⟨rfl, rfl, rfl, b, rfl, h0⟩⟩
    · rw [if_neg (fun h => h0 ((types_of_codes b).1.2 h)), getS] at h2
      obtain ⟨i, s₂, mid', h3, h4⟩ := (Gives.check (w := _root_.id) (bad := fun x => (([] : Bytes), TT.STOP, x.1)) (fun _ h => h)).1 h2
      obtain ⟨rfl, h5⟩ := (getI b s₁ mid hm i s₂ mid').1 h3
      obtain ⟨rfl, rfl, rfl, h6, rfl⟩ := (last b i s₂ mid' h0).1 h4
      exact ⟨rfl, .inr ⟨low b, ⟨b, mid, rfl, rfl, h5⟩, h6, rfl⟩⟩
  · rintro ⟨rfl, ⟨rfl, rfl, rfl, b, rfl, h0⟩ | ⟨c, ⟨b, mid, rfl, rfl, h5⟩, h6, rfl⟩⟩
    · refine ⟨b, s', rest, gives_byte.2 ⟨rfl, rfl⟩, ?_⟩
      rw [if_pos ((types_of_codes b).1.1 h0)]
      exact Gives.pure.2 ⟨rfl, rfl, rfl⟩
    · have hm : mid.length ≤ f := by simp at hf; omega
      have h0 : low b ≠ 0 := by
        intro h
        have := ((codeOf_iff (low_lt b) t).1 h6).1
        rw [h] at this
        have ht : t = 0 := ((Prod.mk.injEq ..).mp this).1.symm
        exact ((codeOf_iff (low_lt b) t).1 h6).2 ht
      refine ⟨b, s, mid, gives_byte.2 ⟨rfl, rfl⟩, ?_⟩
      rw [if_neg (fun h => h0 ((types_of_codes b).1.2 h)), getS]
      exact (Gives.check (w := _root_.id) (bad := fun x => (([] : Bytes), TT.STOP, x.1)) (fun _ h => h)).2
        ⟨id, s, rest, (getI b s mid hm id s rest).2 ⟨rfl, h5⟩, (last b id s rest h0).2 ⟨rfl, rfl, rfl, h6, rfl⟩⟩

end Thrift.Cmp
