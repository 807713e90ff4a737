import Verif.Spec.BinaryForms
import Verif.Lemmas.BinaryValue
import Verif.Lemmas.BinaryAgree
import Verif.Lemmas.Memory
/-!
# What a successful binary read says about the bytes
-/

namespace Thrift
open BinaryProtocol BinarySpec

theorem be_surj : ∀ (k : Nat) (bs : Bytes), bs.length = k → ∃ n, n < 256 ^ k ∧ be k n = bs
  | 0, bs, h => ⟨0, by simp, by rw [List.length_eq_zero_iff.1 h]; rfl⟩
  | k + 1, bs, h => by
    have hne : bs ≠ [] := by rintro rfl; simp at h
    obtain ⟨m, hm, e⟩ := be_surj k bs.dropLast (by rw [List.length_dropLast]; omega)
    refine ⟨m * 256 + (bs.getLast hne).toNat, ?_, ?_⟩
    · have := (bs.getLast hne).isLt
      rw [Nat.pow_succ]
      omega
    · have h1 : (m * 256 + (bs.getLast hne).toNat) / 256 = m := by
        have := (bs.getLast hne).isLt
        omega
      have h2 : BitVec.ofNat 8 (m * 256 + (bs.getLast hne).toNat) = bs.getLast hne := by
        apply BitVec.eq_of_toNat_eq
        have := (bs.getLast hne).isLt
        rw [BitVec.toNat_ofNat]
        omega
      rw [be, h1, h2, e, List.dropLast_concat_getLast]

theorem be_two_surj (bs : Bytes) (h : bs.length = 2) : ∃ v : BitVec 16, be 2 v.toNat = bs := by
  obtain ⟨n, hn, e⟩ := be_surj 2 bs h
  exact ⟨BitVec.ofNat 16 n, by rw [BitVec.toNat_ofNat, Nat.mod_eq_of_lt (by omega), e]⟩
theorem be_four_surj (bs : Bytes) (h : bs.length = 4) : ∃ v : BitVec 32, be 4 v.toNat = bs := by
  obtain ⟨n, hn, e⟩ := be_surj 4 bs h
  exact ⟨BitVec.ofNat 32 n, by rw [BitVec.toNat_ofNat, Nat.mod_eq_of_lt (by omega), e]⟩
theorem be_eight_surj (bs : Bytes) (h : bs.length = 8) : ∃ v : BitVec 64, be 8 v.toNat = bs := by
  obtain ⟨n, hn, e⟩ := be_surj 8 bs h
  exact ⟨BitVec.ofNat 64 n, by rw [BitVec.toNat_ofNat, Nat.mod_eq_of_lt (by omega), e]⟩

/-! ## Soundness -/

/-- If `m` reports no error, what it consumed and what it answers are as `F` says, and
the reader is as before. -/
def Consumes (m : P Bin (α × GoErr)) (s : Bin) (F : α → Bytes → Prop) : Prop :=
  ∀ inp r s' rest, m.run memory s inp = (.ok ((r, none), s'), rest) → s' = s ∧ ∃ bs, inp = bs ++ rest ∧ F r bs

theorem Consumes.weaken {m : P Bin (α × GoErr)} {s : Bin} {F G : α → Bytes → Prop} (h : Consumes m s F) (hi : ∀ a bs, F a bs → G a bs) :
    Consumes m s G := fun inp r s' rest hr => by
  obtain ⟨h1, bs, h2, h3⟩ := h inp r s' rest hr
  exact ⟨h1, bs, h2, hi _ _ h3⟩

theorem Consumes.pure (s : Bin) (a : α) (F : α → Bytes → Prop) (h : F a []) : Consumes (Pure.pure (a, none)) s F := by
  intro inp r s' rest hr
  simp only [P.run_pure, Prod.mk.injEq, Res.ok.injEq] at hr
  obtain ⟨⟨⟨rfl, _⟩, rfl⟩, rfl⟩ := hr
  exact ⟨rfl, [], rfl, h⟩

theorem Consumes.map {m : P Bin (α × GoErr)} {s : Bin} {F : α → Bytes → Prop} {G : β → Bytes → Prop} (h : Consumes m s F) (g : α → β)
    (hi : ∀ a bs, F a bs → G (g a) bs) : Consumes (m >>= fun x => Pure.pure (g x.1, x.2)) s G := by
  intro inp r s' rest hr
  rw [P.run_bind] at hr
  cases hm : m.run memory s inp with
  | mk z t =>
    rw [hm] at hr
    cases z with
    | panic => cases hr
    | stuck => cases hr
    | ok z =>
      obtain ⟨⟨a, e⟩, s₁⟩ := z
      simp only [andThen_ok, P.run_pure, Prod.mk.injEq, Res.ok.injEq] at hr
      obtain ⟨⟨⟨rfl, rfl⟩, rfl⟩, rfl⟩ := hr
      obtain ⟨h1, bs, h2, h3⟩ := h _ _ _ _ hm
      exact ⟨h1, bs, h2, hi _ _ h3⟩

theorem Consumes.check {m : P Bin (α × GoErr)} {k : α × GoErr → P Bin (β × GoErr)} {bad : α × GoErr → β} {w : GoErr → GoErr} {s : Bin}
    {F : α → Bytes → Prop} {G : α → β → Bytes → Prop} {H : β → Bytes → Prop}
    (hw : ∀ e, e.isSome → (w e).isSome) (hm : Consumes m s F) (hk : ∀ a bs, F a bs → Consumes (k (a, none)) s (G a))
    (hi : ∀ a b bs cs, F a bs → G a b cs → H b (bs ++ cs)) :
    Consumes (m >>= fun r => if r.2.isSome then Pure.pure (bad r, w r.2) else k r) s H := by
  intro inp r s' rest hr
  rw [P.run_bind] at hr
  cases hx : m.run memory s inp with
  | mk z t =>
    rw [hx] at hr
    cases z with
    | panic => cases hr
    | stuck => cases hr
    | ok z =>
      obtain ⟨⟨a, e⟩, s₁⟩ := z
      simp only [andThen_ok] at hr
      cases e with
      | some e =>
        have := hw (some e) rfl
        simp only [Option.isSome_some, if_true, P.run_pure, Prod.mk.injEq, Res.ok.injEq] at hr
        rw [hr.1.1.2] at this
        cases this
      | none =>
        simp only [Option.isSome_none, Bool.false_eq_true, if_false] at hr
        obtain ⟨rfl, bs, h2, h3⟩ := hm _ _ _ _ hx
        obtain ⟨g1, cs, g2, g3⟩ := hk a bs h3 _ _ _ _ hr
        exact ⟨g1, bs ++ cs, by rw [h2, g2, List.append_assoc], hi _ _ _ _ h3 g3⟩

theorem Consumes.checkE {k : GoErr → P Bin (β × GoErr)} {bad : β} {s : Bin} {H : β → Bytes → Prop} (hk : Consumes (k none) s H) :
    Consumes (nop >>= fun e => if e.isSome then Pure.pure (bad, e) else k e) s H := hk

theorem sound_raw (n : Nat) (s : Bin) : Consumes (do let r ← P.readAll n; return (r.buf, protocolFromOsError r.err) : P Bin (Bytes × GoErr)) s
    (fun r bs => r = bs ∧ bs.length = n) := by
  intro inp r s' rest hr
  rw [P.run_bind, P.run_readAll, memory_readAll] at hr
  by_cases hn : n ≤ inp.length
  · rw [if_pos hn] at hr
    simp only [andThen_ok, P.run_pure, Prod.mk.injEq, Res.ok.injEq] at hr
    obtain ⟨⟨⟨rfl, _⟩, rfl⟩, rfl⟩ := hr
    exact ⟨rfl, inp.take n, (List.take_append_drop n inp).symm, rfl, by rw [List.length_take]; omega⟩
  · rw [if_neg hn] at hr
    simp only [andThen_ok, P.run_pure, Prod.mk.injEq, Res.ok.injEq] at hr
    have := Bin.isSome_wrap (some readAllErr) rfl
    rw [hr.1.1.2] at this
    cases this

theorem sound_readAllBuf (n : Nat) (s : Bin) (h : s.checkReadLength = false) : Consumes (readAllBuf n) s (fun r bs => r = bs ∧ bs.length = n) := by
  intro inp r s' rest hr
  unfold readAllBuf at hr
  rw [P.run_bind] at hr
  have : (checkReadLength n).run memory s inp = (.ok (none, s), inp) := by
    simp [checkReadLength, h]
  rw [this] at hr
  simp only [andThen_ok, Option.isSome_none, Bool.false_eq_true, if_false] at hr
  exact sound_raw n s inp r s' rest hr

section
variable (s : Bin) (h : s.checkReadLength = false)
include h

theorem sound_byte : Consumes readByte s (fun r bs => bs = [r]) :=
  (sound_readAllBuf 1 s h).map (fun b => b.headD 0) (by
    rintro a bs ⟨rfl, hl⟩
    obtain ⟨x, rfl⟩ := List.length_eq_one_iff.1 hl
    rfl)

theorem sound_bool : Consumes readBool s (fun r bs => ∃ x : Byte, (r = true ↔ x = 1) ∧ bs = [x]) :=
  (sound_byte s h).map (fun b => decide (b = 1)) (by
    rintro a bs rfl
    exact ⟨a, by simp, rfl⟩)

theorem sound_i16 : Consumes readI16 s (fun r bs => bs = be 2 r.toNat) :=
  (sound_readAllBuf 2 s h).map uint16BE (by
    rintro a bs ⟨rfl, hl⟩
    obtain ⟨v, rfl⟩ := be_two_surj a hl
    have := uint16BE_be v []
    rw [List.append_nil] at this
    rw [this])

theorem sound_i32 : Consumes readI32 s (fun r bs => bs = be 4 r.toNat) :=
  (sound_readAllBuf 4 s h).map uint32BE (by
    rintro a bs ⟨rfl, hl⟩
    obtain ⟨v, rfl⟩ := be_four_surj a hl
    have := uint32BE_be v []
    rw [List.append_nil] at this
    rw [this])

theorem sound_i64 : Consumes readI64 s (fun r bs => bs = be 8 r.toNat) :=
  (sound_readAllBuf 8 s h).map uint64BE (by
    rintro a bs ⟨rfl, hl⟩
    obtain ⟨v, rfl⟩ := be_eight_surj a hl
    have := uint64BE_be v []
    rw [List.append_nil] at this
    rw [this])

theorem sound_stringBody (n : Int) : Consumes (readStringBody n) s (fun r bs => r = bs ∧ bs.length = n.toNat) := by
  unfold readStringBody
  by_cases hn : n < 0
  · rw [if_pos hn]
    exact Consumes.pure s [] _ ⟨rfl, by simp; omega⟩
  · rw [if_neg hn]
    intro inp r s' rest hr
    rw [P.run_bind] at hr
    have : (checkReadLength n).run memory s inp = (.ok (none, s), inp) := by
      simp [checkReadLength, h]
    rw [this] at hr
    simp only [andThen_ok, Option.isSome_none, Bool.false_eq_true, if_false] at hr
    exact sound_raw n.toNat s inp r s' rest hr

theorem sound_string : Consumes readString s (fun r bs => Loose (.str r) bs) :=
  Consumes.check (w := id) (fun _ h => h) (sound_i32 s h) (fun v _ _ => sound_stringBody s h v.toInt) (by
    rintro v r bs cs rfl ⟨rfl, hl⟩
    exact ⟨v, hl, rfl⟩)

theorem sound_listBegin : Consumes readListBegin s (fun r bs => ∃ n : I32, r.2 = n.toInt ∧ bs = [r.1] ++ be 4 n.toNat) :=
  Consumes.check (G := fun a r cs => ∃ n : I32, r = (a, n.toInt) ∧ cs = be 4 n.toNat) Bin.isSome_wrap (sound_byte s h)
    (fun a _ _ => Consumes.check (G := fun v r cs => r = (a, BitVec.toInt v) ∧ cs = []) Bin.isSome_wrap (sound_i32 s h)
      (fun v _ _ => Consumes.pure s _ _ ⟨rfl, rfl⟩)
      (by rintro v r bs cs rfl ⟨rfl, rfl⟩; exact ⟨v, rfl, by simp⟩))
    (by rintro a r bs cs rfl ⟨n, rfl, rfl⟩; exact ⟨n, rfl, rfl⟩)

theorem sound_mapBegin : Consumes readMapBegin s (fun r bs => ∃ n : I32, r.2.2 = n.toInt ∧ bs = [r.1, r.2.1] ++ be 4 n.toNat) :=
  Consumes.check (G := fun a r cs => ∃ (b : Byte) (n : I32), r = (a, b, n.toInt) ∧ cs = [b] ++ be 4 n.toNat) Bin.isSome_wrap (sound_byte s h)
    (fun a _ _ => Consumes.check (G := fun b r cs => ∃ n : I32, r = (a, b, n.toInt) ∧ cs = be 4 n.toNat) Bin.isSome_wrap (sound_byte s h)
      (fun b _ _ => Consumes.check (G := fun v r cs => r = (a, b, BitVec.toInt v) ∧ cs = []) Bin.isSome_wrap (sound_i32 s h)
        (fun v _ _ => Consumes.pure s _ _ ⟨rfl, rfl⟩)
        (by rintro v r bs cs rfl ⟨rfl, rfl⟩; exact ⟨v, rfl, by simp⟩))
      (by rintro b r bs cs rfl ⟨n, rfl, rfl⟩; exact ⟨b, n, rfl, rfl⟩))
    (by rintro a r bs cs rfl ⟨b, n, rfl, rfl⟩; exact ⟨n, rfl, rfl⟩)

theorem sound_fieldBegin : Consumes readFieldBegin s (fun r bs => (r.2.1 = TT.STOP ∧ bs = [0]) ∨
    (r.2.1 ≠ TT.STOP ∧ bs = [r.2.1] ++ be 2 r.2.2.toNat)) :=
  Consumes.check (w := id) (G := fun a r cs => (a = TT.STOP ∧ r.2.1 = a ∧ cs = []) ∨ (a ≠ TT.STOP ∧ r.2.1 = a ∧ cs = be 2 r.2.2.toNat))
    (fun _ h => h) (sound_byte s h)
    (fun a _ _ => by
      by_cases ha : a = TT.STOP
      · simp only [ha, ne_eq, not_true_eq_false, if_false]
        exact Consumes.pure s _ _ (by simp)
      · simp only [ne_eq, ha, not_false_eq_true, if_true]
        exact (sound_i16 s h).map (fun i => (([] : Bytes), a, i)) (by rintro i bs rfl; simp))
    (by
      rintro a r bs cs rfl (⟨rfl, h1, rfl⟩ | ⟨ha, h1, rfl⟩)
      · exact .inl ⟨h1, rfl⟩
      · exact .inr ⟨by rw [h1]; exact ha, by rw [h1]⟩)

omit h in
theorem sound_vals (rd : P Bin (Val × GoErr)) (t : Byte) (hr : Consumes rd s (fun v bs => v.type = t ∧ Loose v bs)) : ∀ n,
    Consumes (readVals rd n) s (fun vs bs => vs.length = n ∧ LooseVals t vs bs)
  | 0 => Consumes.pure s _ _ ⟨rfl, by simp only [LooseVals]⟩
  | n + 1 => Consumes.check (w := id) (G := fun v r cs => ∃ vs : Vals, r = .cons v vs ∧ vs.length = n ∧ LooseVals t vs cs) (fun _ h => h) hr
      (fun v _ _ => (sound_vals rd t hr n).map (Vals.cons v) (fun vs bs hv => ⟨vs, rfl, hv.1, hv.2⟩))
      (by
        rintro v r bs cs ⟨h1, h2⟩ ⟨vs, rfl, h3, h4⟩
        refine ⟨congrArg (· + 1) h3, ?_⟩
        simp only [LooseVals]
        exact ⟨h1, bs, cs, h2, h4, rfl⟩)

omit h in
theorem sound_pairs (rk rv : P Bin (Val × GoErr)) (kt vt : Byte) (hk : Consumes rk s (fun v bs => v.type = kt ∧ Loose v bs))
    (hv : Consumes rv s (fun v bs => v.type = vt ∧ Loose v bs)) : ∀ n,
    Consumes (readPairs rk rv n) s (fun ps bs => ps.length = n ∧ LoosePairs kt vt ps bs)
  | 0 => Consumes.pure s _ _ ⟨rfl, by simp only [LoosePairs]⟩
  | n + 1 => Consumes.check (w := id)
      (G := fun k r cs => ∃ (v : Val) (ps : Pairs) (b c : Bytes), r = .cons k v ps ∧ v.type = vt ∧ Loose v b ∧ ps.length = n ∧
        LoosePairs kt vt ps c ∧ cs = b ++ c) (fun _ h => h) hk
      (fun k _ _ => Consumes.check (w := id) (G := fun v r cs => ∃ ps : Pairs, r = .cons k v ps ∧ ps.length = n ∧ LoosePairs kt vt ps cs)
        (fun _ h => h) hv
        (fun v _ _ => (sound_pairs rk rv kt vt hk hv n).map (Pairs.cons k v) (fun ps bs hp => ⟨ps, rfl, hp.1, hp.2⟩))
        (by
          rintro v r bs cs ⟨h1, h2⟩ ⟨ps, rfl, h3, h4⟩
          exact ⟨v, ps, bs, cs, rfl, h1, h2, h3, h4, rfl⟩))
      (by
        rintro k r bs cs ⟨h1, h2⟩ ⟨v, ps, b, c, rfl, h3, h4, h5, h6, rfl⟩
        refine ⟨congrArg (· + 1) h5, ?_⟩
        simp only [LoosePairs]
        exact ⟨h1, h3, bs, b, c, h2, h4, h6, by simp⟩)

theorem sound_fields (rd : TType → P Bin (Val × GoErr)) (hr : ∀ t, Consumes (rd t) s (fun v bs => v.type = t ∧ Loose v bs)) : ∀ n,
    Consumes (readFields binary rd n) s LooseFields
  | 0 => by
    intro inp r s' rest he
    cases he
  | n + 1 => Consumes.check (w := id)
      (G := fun a r cs => (a.2.1 = TT.STOP ∧ r = .nil ∧ cs = []) ∨
        (a.2.1 ≠ TT.STOP ∧ ∃ (v : Val) (fs : Fields) (b c : Bytes), r = .cons a.2.2 v fs ∧ v.type = a.2.1 ∧ Loose v b ∧
          LooseFields fs c ∧ cs = b ++ c))
      (fun _ h => h) (sound_fieldBegin s h)
      (fun a _ _ => by
        by_cases ha : a.2.1 = TT.STOP
        · simp only [ha, if_true]
          exact Consumes.pure s _ _ (by simp)
        · simp only [if_neg ha]
          exact Consumes.check (w := id) (G := fun v r cs => ∃ fs : Fields, r = .cons a.2.2 v fs ∧ LooseFields fs cs) (fun _ h => h) (hr a.2.1)
            (fun v _ _ => Consumes.checkE ((sound_fields rd hr n).map (Fields.cons a.2.2 v) (fun fs bs hf => ⟨fs, rfl, hf⟩)))
            (by
              rintro v r bs cs ⟨h1, h2⟩ ⟨fs, rfl, h3⟩
              exact .inr ⟨ha, v, fs, bs, cs, rfl, h1, h2, h3, rfl⟩))
      (by
        rintro a r bs cs (⟨_, rfl⟩ | ⟨h0, rfl⟩) (⟨h1, rfl, rfl⟩ | ⟨h1, v, fs, b, c, rfl, h2, h3, h4, rfl⟩)
        · simp only [LooseFields]; rfl
        · contradiction
        · contradiction
        · simp only [LooseFields]
          exact ⟨b, c, h3, h4, by rw [h2]; simp⟩)

/-- Whatever is read without error was there, in a form that denotes it. -/
theorem sound_val : ∀ (fuel : Nat) (t : TType), Consumes (readVal binary fuel t) s (fun v bs => v.type = t ∧ Loose v bs)
  | 0, _ => by
    intro inp r s' rest he
    cases he
  | fuel + 1, t => by
    unfold readVal
    by_cases h1 : t = TT.BOOL
    · rw [if_pos h1]; subst h1
      exact (sound_bool s h).map Val.bool (fun a bs hx => ⟨rfl, by simp only [Loose]; exact hx⟩)
    rw [if_neg h1]
    by_cases h1 : t = TT.BYTE
    · rw [if_pos h1]; subst h1
      exact (sound_byte s h).map Val.byte (fun a bs hx => ⟨rfl, by simp only [Loose]; exact hx⟩)
    rw [if_neg h1]
    by_cases h1 : t = TT.I16
    · rw [if_pos h1]; subst h1
      exact (sound_i16 s h).map Val.i16 (fun a bs hx => ⟨rfl, by simp only [Loose]; exact hx⟩)
    rw [if_neg h1]
    by_cases h1 : t = TT.I32
    · rw [if_pos h1]; subst h1
      exact (sound_i32 s h).map Val.i32 (fun a bs hx => ⟨rfl, by simp only [Loose]; exact hx⟩)
    rw [if_neg h1]
    by_cases h1 : t = TT.I64
    · rw [if_pos h1]; subst h1
      exact (sound_i64 s h).map Val.i64 (fun a bs hx => ⟨rfl, by simp only [Loose]; exact hx⟩)
    rw [if_neg h1]
    by_cases h1 : t = TT.DOUBLE
    · rw [if_pos h1]; subst h1
      exact (sound_i64 s h).map Val.double (fun a bs hx => ⟨rfl, by simp only [Loose]; exact hx⟩)
    rw [if_neg h1]
    by_cases h1 : t = TT.STRING
    · rw [if_pos h1]; subst h1
      exact (sound_string s h).map Val.str (fun a bs hx => ⟨rfl, hx⟩)
    rw [if_neg h1]
    by_cases h1 : t = TT.STRUCT
    · rw [if_pos h1]; subst h1
      exact Consumes.check (w := id) (F := fun (_ : Bytes) bs => bs = []) (G := fun _ r cs => r.type = TT.STRUCT ∧ Loose r cs) (fun _ h => h)
        (Consumes.pure s _ _ rfl)
        (fun _ _ _ => Consumes.check (w := id) (G := fun fs r cs => r = Val.struct fs ∧ cs = []) (fun _ h => h)
          (sound_fields s h _ (sound_val fuel) fuel) (fun fs _ _ => Consumes.pure s _ _ ⟨rfl, rfl⟩)
          (by rintro fs r bs cs hf ⟨rfl, rfl⟩; rw [List.append_nil]; exact ⟨rfl, by simp only [Loose]; exact hf⟩))
        (by rintro a r bs cs rfl hr; exact hr)
    rw [if_neg h1]
    by_cases h1 : t = TT.MAP
    · rw [if_pos h1]; subst h1
      exact Consumes.check (w := id)
        (G := fun a r cs => ∃ ps, r = Val.map a.1 a.2.1 ps ∧ ps.length = a.2.2.toNat ∧ LoosePairs a.1 a.2.1 ps cs) (fun _ h => h)
        (sound_mapBegin s h)
        (fun a _ _ => Consumes.check (w := id) (G := fun ps r cs => r = Val.map a.1 a.2.1 ps ∧ cs = []) (fun _ h => h)
          (sound_pairs s _ _ a.1 a.2.1 (sound_val fuel a.1) (sound_val fuel a.2.1) a.2.2.toNat)
          (fun ps _ _ => Consumes.pure s _ _ ⟨rfl, rfl⟩)
          (by rintro ps r bs cs ⟨hl, hp⟩ ⟨rfl, rfl⟩; rw [List.append_nil]; exact ⟨ps, rfl, hl, hp⟩))
        (by
          rintro a r bs cs ⟨n, hn, rfl⟩ ⟨ps, rfl, hl, hp⟩
          refine ⟨rfl, ?_⟩
          simp only [Loose]
          exact ⟨n, cs, by rw [hl, hn], hp, rfl⟩)
    rw [if_neg h1]
    by_cases h1 : t = TT.SET
    · rw [if_pos h1]; subst h1
      exact Consumes.check (w := id)
        (G := fun a r cs => ∃ ps, r = Val.set a.1 ps ∧ ps.length = a.2.toNat ∧ LooseVals a.1 ps cs) (fun _ h => h)
        (sound_listBegin s h)
        (fun a _ _ => Consumes.check (w := id) (G := fun ps r cs => r = Val.set a.1 ps ∧ cs = []) (fun _ h => h)
          (sound_vals s _ a.1 (sound_val fuel a.1) a.2.toNat)
          (fun ps _ _ => Consumes.pure s _ _ ⟨rfl, rfl⟩)
          (by rintro ps r bs cs ⟨hl, hp⟩ ⟨rfl, rfl⟩; rw [List.append_nil]; exact ⟨ps, rfl, hl, hp⟩))
        (by
          rintro a r bs cs ⟨n, hn, rfl⟩ ⟨ps, rfl, hl, hp⟩
          refine ⟨rfl, ?_⟩
          simp only [Loose]
          exact ⟨n, cs, by rw [hl, hn], hp, rfl⟩)
    rw [if_neg h1]
    by_cases h1 : t = TT.LIST
    · rw [if_pos h1]; subst h1
      exact Consumes.check (w := id)
        (G := fun a r cs => ∃ ps, r = Val.list a.1 ps ∧ ps.length = a.2.toNat ∧ LooseVals a.1 ps cs) (fun _ h => h)
        (sound_listBegin s h)
        (fun a _ _ => Consumes.check (w := id) (G := fun ps r cs => r = Val.list a.1 ps ∧ cs = []) (fun _ h => h)
          (sound_vals s _ a.1 (sound_val fuel a.1) a.2.toNat)
          (fun ps _ _ => Consumes.pure s _ _ ⟨rfl, rfl⟩)
          (by rintro ps r bs cs ⟨hl, hp⟩ ⟨rfl, rfl⟩; rw [List.append_nil]; exact ⟨ps, rfl, hl, hp⟩))
        (by
          rintro a r bs cs ⟨n, hn, rfl⟩ ⟨ps, rfl, hl, hp⟩
          refine ⟨rfl, ?_⟩
          simp only [Loose]
          exact ⟨n, cs, by rw [hl, hn], hp, rfl⟩)
    rw [if_neg h1]
    intro inp r s' rest he
    simp only [P.run_pure, Prod.mk.injEq, Res.ok.injEq] at he
    exact absurd he.1.1.2 (by simp)

end

/-! ## Completeness -/

section
variable (s : Bin) (h : s.checkReadLength = false)
include h

theorem reads_bool_any (x : Byte) (b : Bool) (hb : b = true ↔ x = 1) : Reads readBool s s [x] b := by
  have e : b = decide (x = 1) := by
    cases b
    · have : ¬ x = 1 := fun hx => by simp [hx] at hb
      exact (decide_eq_false this).symm
    · exact (decide_eq_true (hb.1 rfl)).symm
  rw [e]
  exact reads_mapFst (Bin.reads_byte x s h) (fun y => decide (y = 1))

theorem reads_stringBody_any (n : Int) (b : Bytes) (hb : b.length = n.toNat) : Reads (readStringBody n) s s b b := by
  by_cases hn : n < 0
  · have : b = [] := List.length_eq_zero_iff.1 (by omega)
    subst this
    unfold readStringBody
    rw [if_pos hn]
    exact Runs.pure _ _
  · have : n = (b.length : Int) := by omega
    rw [this]
    exact Bin.reads_stringBody b s h

theorem reads_string_any (n : I32) (b : Bytes) (hb : b.length = n.toInt.toNat) : Reads readString s s (be 4 n.toNat ++ b) b := by
  show Runs (readI32 >>= _) _ _ _ _
  rstep (Bin.reads_i32 n s h)
  exact reads_stringBody_any s h _ _ hb

theorem reads_listBegin_any (t : TType) (n : I32) : Reads readListBegin s s ([t] ++ be 4 n.toNat) (t, n.toInt) := by
  refine Runs.congr (a := [t] ++ (be 4 n.toNat ++ [])) ?_ (by simp)
  show Runs (readByte >>= _) _ _ _ _
  rstep (Bin.reads_byte t s h)
  rstep (Bin.reads_i32 n s h)
  exact Runs.pure _ _

theorem reads_mapBegin_any (kt vt : TType) (n : I32) : Reads readMapBegin s s ([kt, vt] ++ be 4 n.toNat) (kt, vt, n.toInt) := by
  refine Runs.congr (a := [kt] ++ ([vt] ++ (be 4 n.toNat ++ []))) ?_ (by simp)
  show Runs (readByte >>= _) _ _ _ _
  rstep (Bin.reads_byte kt s h)
  rstep (Bin.reads_byte vt s h)
  rstep (Bin.reads_i32 n s h)
  exact Runs.pure _ _

set_option linter.unusedSectionVars false

mutual
theorem Loose.readVal : ∀ (v : Val) {bs : Bytes} (fuel : Nat), v.size ≤ fuel → Loose v bs →
    Reads (readVal binary fuel v.type) s s bs v
  | .bool b, bs, fuel + 1, _, hl => by
    simp only [Loose] at hl
    obtain ⟨x, hx, rfl⟩ := hl
    exact reads_mapFst (reads_bool_any s h x b hx) _
  | .byte b, bs, fuel + 1, _, hl => by
    simp only [Loose] at hl; subst hl
    exact reads_mapFst (Bin.reads_byte b s h) _
  | .i16 b, bs, fuel + 1, _, hl => by
    simp only [Loose] at hl; subst hl
    exact reads_mapFst (Bin.reads_i16 b s h) _
  | .i32 b, bs, fuel + 1, _, hl => by
    simp only [Loose] at hl; subst hl
    exact reads_mapFst (Bin.reads_i32 b s h) _
  | .i64 b, bs, fuel + 1, _, hl => by
    simp only [Loose] at hl; subst hl
    exact reads_mapFst (Bin.reads_i64 b s h) _
  | .double b, bs, fuel + 1, _, hl => by
    simp only [Loose] at hl; subst hl
    exact reads_mapFst (Bin.reads_double b s h) _
  | .str b, bs, fuel + 1, _, hl => by
    simp only [Loose] at hl
    obtain ⟨n, hn, rfl⟩ := hl
    exact reads_mapFst (reads_string_any s h n b hn) _
  | .struct fs, bs, fuel + 1, hf, hl => by
    simp only [Loose] at hl
    simp only [Val.size] at hf
    refine Runs.congr (a := [] ++ (bs ++ ([] ++ []))) ?_ (by simp)
    show Runs (binary.readStructBegin >>= _ : P Bin (Val × GoErr)) _ _ _ _
    rstep (Runs.pure s (([] : Bytes), (none : GoErr)) : Reads binary.readStructBegin s s [] [])
    rstep (LooseFields.readFields fs fuel fuel (by omega) (by omega) hl)
    rstep (Runs.pure s (none : GoErr) : Runs binary.readStructEnd s s [] none)
    exact Runs.pure _ _
  | .map kt vt ps, bs, fuel + 1, hf, hl => by
    simp only [Loose] at hl
    obtain ⟨n, c, hn, hp, rfl⟩ := hl
    simp only [Val.size] at hf
    refine Runs.congr (a := ([kt, vt] ++ be 4 n.toNat) ++ (c ++ [])) ?_ (by simp)
    show Runs (readMapBegin >>= _) _ _ _ _
    rstep (reads_mapBegin_any s h kt vt n)
    rw [← hn]
    rstep (LoosePairs.readPairs kt vt ps fuel (by omega) hp)
    exact Runs.pure _ _
  | .set t vs, bs, fuel + 1, hf, hl => by
    simp only [Loose] at hl
    obtain ⟨n, c, hn, hp, rfl⟩ := hl
    simp only [Val.size] at hf
    refine Runs.congr (a := ([t] ++ be 4 n.toNat) ++ (c ++ [])) ?_ (by simp)
    show Runs (readListBegin >>= _) _ _ _ _
    rstep (reads_listBegin_any s h t n)
    rw [← hn]
    rstep (LooseVals.readVals t vs fuel (by omega) hp)
    exact Runs.pure _ _
  | .list t vs, bs, fuel + 1, hf, hl => by
    simp only [Loose] at hl
    obtain ⟨n, c, hn, hp, rfl⟩ := hl
    simp only [Val.size] at hf
    refine Runs.congr (a := ([t] ++ be 4 n.toNat) ++ (c ++ [])) ?_ (by simp)
    show Runs (readListBegin >>= _) _ _ _ _
    rstep (reads_listBegin_any s h t n)
    rw [← hn]
    rstep (LooseVals.readVals t vs fuel (by omega) hp)
    exact Runs.pure _ _
  | v, _, 0, hf, _ => by
    have := v.size_pos
    omega
theorem LooseFields.readFields : ∀ (fs : Fields) {bs : Bytes} (fuel n : Nat), fs.size ≤ fuel → fs.size ≤ n →
    LooseFields fs bs → Reads (Thrift.readFields binary (Thrift.readVal binary fuel) n) s s bs fs
  | .nil, _, fuel, 0, hf, hn, _ => by simp [Fields.size] at hn
  | .cons id v r, _, fuel, 0, hf, hn, _ => by
    have := v.size_pos
    simp only [Fields.size] at hn; omega
  | .nil, bs, fuel, n + 1, hf, hn, hl => by
    simp only [LooseFields] at hl; subst hl
    refine Runs.congr (a := [0] ++ []) ?_ (by simp)
    show Runs (readFieldBegin >>= _) _ _ _ _
    rstep (Bin.reads_fieldStop s h)
    exact Runs.pure _ _
  | .cons id v r, bs, fuel, n + 1, hf, hn, hl => by
    simp only [LooseFields] at hl
    obtain ⟨a, c, h1, h2, rfl⟩ := hl
    have hp := v.size_pos
    simp only [Fields.size] at hn hf
    refine Runs.congr (a := ([v.type] ++ be 2 id.toNat) ++ (a ++ ([] ++ (c ++ [])))) ?_ (by simp)
    show Runs (readFieldBegin >>= _) _ _ _ _
    rstep (Bin.reads_fieldBegin v.type v.type_ne_stop id s h)
    simp only [v.type_ne_stop, if_false]
    rstep (Loose.readVal v fuel (by omega) h1)
    rstep (Runs.pure s (none : GoErr) : Runs binary.readFieldEnd s s [] none)
    rstep (LooseFields.readFields r fuel n (by omega) (by omega) h2)
    exact Runs.pure _ _
theorem LooseVals.readVals : ∀ (t : Byte) (vs : Vals) {bs : Bytes} (fuel : Nat), vs.size ≤ fuel →
    LooseVals t vs bs → Reads (Thrift.readVals (Thrift.readVal binary fuel t) vs.length) s s bs vs
  | t, .nil, _, fuel, _, hl => by
    simp only [LooseVals] at hl; subst hl
    exact Runs.pure _ _
  | t, .cons v r, _, fuel, hf, hl => by
    simp only [LooseVals] at hl
    obtain ⟨rfl, a, c, h1, h2, rfl⟩ := hl
    simp only [Vals.size] at hf
    simp only [Vals.length, Thrift.readVals]
    rstep (Loose.readVal v fuel (by omega) h1)
    exact reads_mapFst (LooseVals.readVals v.type r fuel (by omega) h2) (Vals.cons v)
theorem LoosePairs.readPairs : ∀ (kt vt : Byte) (ps : Pairs) {bs : Bytes} (fuel : Nat), ps.size ≤ fuel →
    LoosePairs kt vt ps bs → Reads (Thrift.readPairs (Thrift.readVal binary fuel kt) (Thrift.readVal binary fuel vt) ps.length) s s bs ps
  | kt, vt, .nil, _, fuel, _, hl => by
    simp only [LoosePairs] at hl; subst hl
    exact Runs.pure _ _
  | kt, vt, .cons k v r, _, fuel, hf, hl => by
    simp only [LoosePairs] at hl
    obtain ⟨rfl, rfl, a, b, c, h1, h2, h3, rfl⟩ := hl
    simp only [Pairs.size] at hf
    simp only [Pairs.length, Thrift.readPairs]
    refine Runs.congr (a := a ++ (b ++ c)) ?_ (by simp)
    rstep (Loose.readVal k fuel (by omega) h1)
    rstep (Loose.readVal v fuel (by omega) h2)
    exact reads_mapFst (LoosePairs.readPairs k.type v.type r fuel (by omega) h3) (Pairs.cons k v)
end

end

/-! ## Message headers -/

theorem strictWord (w : I32) (hv : w.signExtend 64 &&& VERSION_MASK = VERSION_1.setWidth 64) :
    ∃ x y : Byte, be 4 w.toNat = [0x80, 0x01, x, y] ∧ w &&& 0x0ff = y.setWidth 32 := by
  have h1 : w >>> 16 = 0x8001#32 := by
    apply BitVec.eq_of_getLsbD_eq
    intro i hi
    rw [BitVec.getLsbD_ushiftRight]
    by_cases hb : i < 16
    · have := congrArg (fun z => z.getLsbD (16 + i)) hv
      simp only [BitVec.getLsbD_and, BitVec.getLsbD_signExtend] at this
      have m1 : ∀ i : Fin 16, VERSION_MASK.getLsbD (16 + i.1) = true := by decide
      have m2 : ∀ i : Fin 16, (VERSION_1.setWidth 64).getLsbD (16 + i.1) = (0x8001#32).getLsbD i.1 := by decide
      rw [m1 ⟨i, hb⟩, m2 ⟨i, hb⟩, if_pos (by omega), Bool.and_true] at this
      simpa [show 16 + i < 64 by omega] using this
    · rw [BitVec.getLsbD_of_ge w (16 + i) (by omega)]
      have m : ∀ i : Fin 32, ¬ i.1 < 16 → (0x8001#32).getLsbD i.1 = false := by decide
      exact (m ⟨i, hi⟩ hb).symm
  have h2 : w.toNat / 65536 = 0x8001 := by
    have := congrArg BitVec.toNat h1
    rw [BitVec.toNat_ushiftRight, Nat.shiftRight_eq_div_pow] at this
    exact this
  refine ⟨BitVec.ofNat 8 (w.toNat / 256), BitVec.ofNat 8 w.toNat, ?_, ?_⟩
  · simp only [be, Nat.div_div_eq_div_mul, List.nil_append, List.cons_append]
    rw [show w.toNat / (256 * 256) = 0x8001 from h2, show w.toNat / (256 * 256 * 256) = 0x80 by omega]
    rfl
  · apply BitVec.eq_of_toNat_eq
    rw [BitVec.toNat_and, BitVec.toNat_setWidth, BitVec.toNat_ofNat]
    have : (0x0ff : I32).toNat = 2 ^ 8 - 1 := rfl
    rw [this, Nat.and_two_pow_sub_one_eq_mod]
    omega

theorem strictWord_of (x y : Byte) : ∃ w : I32, be 4 w.toNat = [0x80, 0x01, x, y] ∧ w.toInt < 0 ∧ w &&& 0x0ff = y.setWidth 32 ∧
    w.signExtend 64 &&& VERSION_MASK = VERSION_1.setWidth 64 := by
  obtain ⟨w, hw⟩ := be_four_surj [0x80, 0x01, x, y] rfl
  have e1 : ∀ a b c d : Byte, be 4 w.toNat = [a, b, c, d] → w.toNat / 65536 = a.toNat * 256 + b.toNat ∧ d.toNat = w.toNat % 256 := by
    intro a b c d he
    simp only [be, Nat.div_div_eq_div_mul, List.nil_append, List.cons_append, List.cons.injEq, and_true] at he
    obtain ⟨rfl, rfl, rfl, rfl⟩ := he
    simp only [BitVec.toNat_ofNat]
    have hw := w.isLt
    have hd : w.toNat / (256 * 256 * 256) = w.toNat / (256 * 256) / 256 := by rw [Nat.div_div_eq_div_mul]
    have hx : w.toNat / (256 * 256) < 65536 := by omega
    rw [hd]
    refine ⟨?_, trivial⟩
    show w.toNat / (256 * 256) = _
    generalize w.toNat / (256 * 256) = q at hx
    omega
  obtain ⟨h2, h3⟩ := e1 _ _ _ _ hw
  have h2 : w.toNat / 65536 = 0x8001 := h2
  refine ⟨w, hw, ?_, ?_, ?_⟩
  · have := w.isLt
    rw [BitVec.toInt_eq_toNat_cond, if_neg (by omega)]
    omega
  · apply BitVec.eq_of_toNat_eq
    rw [BitVec.toNat_and, BitVec.toNat_setWidth, h3]
    have : (0x0ff : I32).toNat = 2 ^ 8 - 1 := rfl
    rw [this, Nat.and_two_pow_sub_one_eq_mod]
    omega
  · have h1 : w >>> 16 = 0x8001#32 := by
      apply BitVec.eq_of_toNat_eq
      rw [BitVec.toNat_ushiftRight, Nat.shiftRight_eq_div_pow]
      exact h2
    apply BitVec.eq_of_getLsbD_eq
    intro i hi
    rw [BitVec.getLsbD_and]
    by_cases h16 : i < 16
    · have m : ∀ i : Fin 16, VERSION_MASK.getLsbD i.1 = false ∧ (VERSION_1.setWidth 64).getLsbD i.1 = false := by decide
      rw [(m ⟨i, h16⟩).1, (m ⟨i, h16⟩).2, Bool.and_false]
    by_cases h32 : i < 32
    · have m1 : ∀ i : Fin 16, VERSION_MASK.getLsbD (16 + i.1) = true := by decide
      have m2 : ∀ i : Fin 16, (VERSION_1.setWidth 64).getLsbD (16 + i.1) = (0x8001#32).getLsbD i.1 := by decide
      obtain ⟨j, rfl⟩ : ∃ j, i = 16 + j := ⟨i - 16, by omega⟩
      have := congrArg (fun z => z.getLsbD j) h1
      simp only [BitVec.getLsbD_ushiftRight] at this
      rw [m1 ⟨j, by omega⟩, m2 ⟨j, by omega⟩, Bool.and_true, ← this, BitVec.getLsbD_signExtend, if_pos h32]
      simp [show 16 + j < 64 by omega]
    · have m : ∀ i : Fin 64, ¬ i.1 < 32 → VERSION_MASK.getLsbD i.1 = false ∧ (VERSION_1.setWidth 64).getLsbD i.1 = false := by decide
      rw [(m ⟨i, hi⟩ h32).1, (m ⟨i, hi⟩ h32).2, Bool.and_false]

end Thrift
