import Verif.Model.SkipWork
import Verif.Lemmas.Decode
import Verif.Lemmas.Digest
import Verif.Lemmas.Tells
import Verif.Lemmas.BinaryValue
import Verif.Lemmas.CompactValue
/-!
# Counting the calls of `Skip`
-/

namespace Thrift

/-! ## The counter changes nothing -/

/-- `m` is `m'` with `f` applied to the result. -/
def Erases (f : β → α) (m' : P π β) (m : P π α) : Prop := ∀ s, m s = (m' s).bind fun x => .ret (f x.1, x.2)

theorem Prog.bind_assoc (p : Prog α) (f : α → Prog β) (g : β → Prog γ) : (p.bind f).bind g = p.bind fun a => (f a).bind g := by
  induction p with
  | ret a => rfl
  | panic => rfl
  | stuck => rfl
  | readAll n k ih => exact congrArg (Prog.readAll n) (funext ih)
  | write bs k ih => exact congrArg (Prog.write bs) (funext ih)
  | flush k ih => exact congrArg Prog.flush (funext ih)

theorem Prog.bind_ret (p : Prog α) : p.bind .ret = p := by
  induction p with
  | ret a => rfl
  | panic => rfl
  | stuck => rfl
  | readAll n k ih => exact congrArg (Prog.readAll n) (funext ih)
  | write bs k ih => exact congrArg (Prog.write bs) (funext ih)
  | flush k ih => exact congrArg Prog.flush (funext ih)

namespace Erases
theorem pure (f : β → α) {b : β} {a : α} (h : f b = a) : Erases f (Pure.pure b : P π β) (Pure.pure a) := fun _ => by rw [← h]; rfl
theorem refl (m : P π α) : Erases id m m := fun s => (Prog.bind_ret (m s)).symm
theorem stuck (f : β → α) : Erases f (P.stuck : P π β) P.stuck := fun _ => rfl
theorem bind {f : β → α} {g : δ → γ} {m' : P π β} {m : P π α} {k' : β → P π δ} {k : α → P π γ} (hm : Erases f m' m)
    (hk : ∀ b, Erases g (k' b) (k (f b))) : Erases g (m' >>= k') (m >>= k) := fun s => by
  show (m s).bind _ = ((m' s).bind _).bind _
  rw [hm s, Prog.bind_assoc, Prog.bind_assoc]
  exact congrArg _ (funext fun x => hk x.1 x.2)
theorem same {g : δ → γ} {m : P π α} {k' : α → P π δ} {k : α → P π γ} (hk : ∀ b, Erases g (k' b) (k b)) :
    Erases g (m >>= k') (m >>= k) := bind (refl m) hk
theorem ite {c : Prop} [Decidable c] {f : β → α} {a' b' : P π β} {a b : P π α} (ha : Erases f a' a) (hb : Erases f b' b) :
    Erases f (if c then a' else b') (if c then a else b) := by
  split <;> assumption

/-- A call whose result nothing depends on but the count. -/
theorem drop {g : δ → γ} {f : β → α} {m' : P π β} {m : P π α} {k' : β → P π δ} {k : P π γ} (hm : Erases f m' m)
    (hk : ∀ b, Erases g (k' b) k) : Erases g (m' >>= k') (m >>= fun _ => k) := bind hm hk
end Erases

theorem erases_repeat {m' : P π Nat} {m : P π Unit} (h : Erases (fun _ => ()) m' m) :
    ∀ n, Erases (fun _ => ()) (repeatWork n m') (repeatN n m)
  | 0 => Erases.pure _ rfl
  | n + 1 => Erases.bind h fun _ => fun s => by
      rw [erases_repeat h n s]
      show _ = ((repeatWork n m' s).bind _).bind _
      rw [Prog.bind_assoc]; rfl

theorem erases_fields {p : Proto π} {f' : TType → P π (GoErr × Nat)} {f : TType → P π GoErr} (h : ∀ t, Erases Prod.fst (f' t) (f t)) :
    ∀ n, Erases (fun _ => ()) (skipFieldsWork p f' n) (skipFields p f n)
  | 0 => Erases.stuck _
  | n + 1 => Erases.same fun ⟨⟨_, t, _⟩, _⟩ => Erases.ite (Erases.pure _ rfl) (Erases.bind (h t) fun _ => Erases.same fun _ => fun s => by
      rw [erases_fields h n s]
      show _ = ((skipFieldsWork p f' n s).bind _).bind _
      rw [Prog.bind_assoc]; rfl)

theorem erases_last {m : P π α} {n : α → β} {e : α → γ} : Erases Prod.fst (do let x ← m; return (e x, n x) : P π (γ × β)) (do return e (← m)) := fun s => by
  show (m s).bind _ = ((m s).bind _).bind _
  rw [Prog.bind_assoc]; rfl

theorem erases_end {m : P π γ} {n : β} : Erases Prod.fst (do let x ← m; return (x, n) : P π (γ × β)) m := fun s => by
  show (m s) = ((m s).bind _).bind _
  rw [Prog.bind_assoc]
  exact (Prog.bind_ret (m s)).symm

/-- `skipWork` is `skip` with a counter. -/
theorem erases_skip (p : Proto π) (msd : Int) : ∀ fuel t d, Erases Prod.fst (skipWork p msd fuel t d) (skip p msd fuel t d)
  | 0, _, _ => Erases.stuck _
  | fuel + 1, t, d => by
    unfold skipWork skip
    have E : ∀ t d, Erases (fun _ => ()) (do let (_, a) ← skipWork p msd fuel t d; return a : P π Nat) (do let _ ← skip p msd fuel t d; return ()) :=
      fun t d => Erases.bind (erases_skip p msd fuel t d) fun _ => Erases.pure _ rfl
    have E2 : ∀ t d t' d', Erases (fun _ => ()) (do
          let (_, a) ← skipWork p msd fuel t d
          let (_, b) ← skipWork p msd fuel t' d'
          return a + b : P π Nat) (do
          let _ ← skip p msd fuel t d
          let _ ← skip p msd fuel t' d'
          return ()) :=
      fun t d t' d' => Erases.bind (erases_skip p msd fuel t d) fun _ => Erases.bind (erases_skip p msd fuel t' d') fun _ => Erases.pure _ rfl
    refine Erases.ite (Erases.pure _ rfl) (Erases.ite erases_last (Erases.ite erases_last (Erases.ite erases_last (Erases.ite erases_last
      (Erases.ite erases_last (Erases.ite erases_last (Erases.ite erases_last ?_)))))))
    refine Erases.ite ?_ (Erases.ite ?_ (Erases.ite ?_ (Erases.ite ?_ (Erases.pure _ rfl))))
    · exact Erases.same fun x => Erases.ite (Erases.pure _ rfl)
        (Erases.bind (erases_fields (fun t => erases_skip p msd fuel t _) fuel) fun _ => erases_end)
    · exact Erases.same fun ⟨⟨_, _, _⟩, _⟩ => Erases.ite (Erases.pure _ rfl)
        (Erases.bind (erases_repeat (E2 _ _ _ _) _) fun _ => erases_end)
    · exact Erases.same fun ⟨⟨_, _⟩, _⟩ => Erases.ite (Erases.pure _ rfl)
        (Erases.bind (erases_repeat (E _ _) _) fun _ => erases_end)
    · exact Erases.same fun ⟨⟨_, _⟩, _⟩ => Erases.ite (Erases.pure _ rfl)
        (Erases.bind (erases_repeat (E _ _) _) fun _ => erases_end)

/-! ## A bound -/

/-- No container has 2^31 elements. -/
structure Proto.Sized (p : Proto π) : Prop where
  map : ∀ s, (p.readMapBegin s).All fun x => x.1.1.2.2 < 2147483648
  set : ∀ s, (p.readSetBegin s).All fun x => x.1.1.2 < 2147483648
  list : ∀ s, (p.readListBegin s).All fun x => x.1.1.2 < 2147483648

theorem Wp.also {m : P π α} {s : π} {inp : Bytes} {Q : α → π → Bytes → Prop} {X : Bytes → Prop} {R : α → Prop} (h : Wp m s inp Q X)
    (hr : (m s).All fun x => R x.1) : Wp m s inp (fun a s' i => Q a s' i ∧ R a) X := by
  intro out
  rcases h out with ⟨a, s', i, h1, h2⟩ | h
  · exact .inl ⟨a, s', i, h1, h2, hr.run duplex _ _ _ h1⟩
  · exact .inr h

/-- `n` calls are paid for with 2^32 for every byte consumed and `c` besides. -/
def Costs (c : Nat) (inp : Bytes) (n : α → Nat) : α → π → Bytes → Prop := fun a _ i =>
  i.length ≤ inp.length ∧ n a + 4294967296 * i.length ≤ c + 4294967296 * inp.length

theorem wp_repeatWork {body : P π Nat} {A c : Nat} (h : ∀ s (i : Bytes), i.length ≤ A → Wp body s i (Costs c i id) AnyPanic) :
    ∀ (n : Nat) (s : π) (inp : Bytes), inp.length ≤ A → Wp (repeatWork n body) s inp (Costs (c * n) inp id) AnyPanic
  | 0, _, _, _ => Wp.pure ⟨Nat.le_refl _, by simp⟩
  | n + 1, s, inp, hA => by
    refine Wp.bind (h s inp hA) fun a s' i ha => Wp.bind (wp_repeatWork h n s' i (by have := ha.1; omega)) fun b s2 j hb => Wp.pure ?_
    obtain ⟨h1, h2⟩ := ha
    obtain ⟨h3, h4⟩ := hb
    simp only [id] at h2 h4
    refine ⟨by omega, ?_⟩
    simp only [id, Nat.mul_succ]
    omega

section
variable {p : Proto π} {B : Nat} (D : p.Digests B) (Z : p.Sized)
include D

theorem wp_skipFieldsWork (f : TType → P π (GoErr × Nat)) (A : Nat) (hA : A < B)
    (hf : ∀ t s (i : Bytes), i.length < A → Wp (f t) s i (Costs 1 i Prod.snd) AnyPanic) :
    ∀ (n : Nat) (s : π) (inp : Bytes), inp.length ≤ A → inp.length < n → Wp (skipFieldsWork p f n) s inp (Costs 0 inp id) AnyPanic
  | 0, _, _, _, h => by omega
  | n + 1, s, inp, hi, hn => by
    unfold skipFieldsWork
    refine Wp.bind (D.fieldBegin s inp (by omega)) fun r s' i h => Wp.ite (fun _ => Wp.pure ⟨h.1, ?_⟩) fun ht => ?_
    · have := h.1; simp only [id]; omega
    have hlt := h.2 ht
    refine Wp.bind (hf _ s' i (by omega)) fun a s2 j hj => Wp.bind (D.fieldEnd s2 j) fun _ s3 k hk => ?_
    obtain ⟨h1, h2⟩ := hj
    simp only [Shrinks] at hk
    refine Wp.bind (wp_skipFieldsWork f A hA hf n s3 k (by omega) (by omega)) fun b _ l hl => Wp.pure ?_
    obtain ⟨h3, h4⟩ := hl
    simp only [id] at h4
    refine ⟨by omega, ?_⟩
    simp only [id]
    omega

include Z

theorem wp_skipWork (msd : Int) : ∀ (fuel : Nat) (t : TType) (d : Int) (s : π) (inp : Bytes), inp.length + 1 < fuel → inp.length < B →
    Wp (skipWork p msd fuel t d) s inp (Costs 1 inp Prod.snd) AnyPanic
  | 0, _, _, _, _, h, _ => by omega
  | fuel + 1, t, d, s, inp, hf, hB => by
    have hrec : ∀ t d s (i : Bytes), i.length < inp.length → Wp (skipWork p msd fuel t d) s i (Costs 1 i Prod.snd) AnyPanic :=
      fun t d s i hi => wp_skipWork msd fuel t d s i (by omega) (by omega)
    have R : ∀ (e : GoErr) s (i : Bytes), i.length ≤ inp.length → Costs 1 inp Prod.snd (e, 1) (s : π) i := fun e s i h =>
      ⟨h, by show 1 + _ ≤ _; omega⟩
    have M {α : Type} {m : P π (α × GoErr)} (h : Wp m s inp (Shrinks inp) AnyPanic) :
        Wp (do return ((← m).2, 1)) s inp (Costs 1 inp Prod.snd) AnyPanic := Wp.bind h fun _ _ _ h => Wp.pure (R _ _ _ h)
    unfold skipWork
    refine Wp.ite (fun _ => Wp.pure (R _ _ _ (Nat.le_refl _))) fun _ => ?_
    refine Wp.ite (fun _ => M (D.bool s inp)) fun _ => ?_
    refine Wp.ite (fun _ => M (D.byte s inp)) fun _ => ?_
    refine Wp.ite (fun _ => M (D.i16 s inp hB)) fun _ => ?_
    refine Wp.ite (fun _ => M (D.i32 s inp hB)) fun _ => ?_
    refine Wp.ite (fun _ => M (D.i64 s inp hB)) fun _ => ?_
    refine Wp.ite (fun _ => M (D.double s inp)) fun _ => ?_
    refine Wp.ite (fun _ => M (D.string s inp hB)) fun _ => ?_
    refine Wp.ite (fun _ => ?_) fun _ => Wp.ite (fun _ => ?_) fun _ => Wp.ite (fun _ => ?_) fun _ =>
      Wp.ite (fun _ => ?_) fun _ => Wp.pure (R _ _ _ (Nat.le_refl _))
    · refine Wp.bind (D.structBegin s inp) fun r s' i h => Wp.ite (fun _ => Wp.pure (R _ _ _ h)) fun _ => ?_
      simp only [Shrinks] at h
      refine Wp.bind (wp_skipFieldsWork D _ i.length (by omega) (fun t s j hj => hrec t _ s j (by omega)) fuel s' i (Nat.le_refl _) (by omega))
        fun n s2 j hj => Wp.bind (D.structEnd s2 j) fun _ _ k hk => Wp.pure ?_
      obtain ⟨h1, h2⟩ := hj
      simp only [Shrinks, id] at hk h2
      exact ⟨by omega, by show n + 1 + _ ≤ _; omega⟩
    · refine Wp.bind ((D.mapBegin s inp hB).also (R := fun x => x.1.2.2 < 2147483648) (Z.map s)) fun r s' i h => Wp.ite (fun _ => Wp.pure (R _ _ _ h.1.1)) fun he => ?_
      have h2 := h.1.2 (by simpa using he)
      refine Wp.bind (wp_repeatWork (A := i.length) (c := 2) ?_ r.1.2.2.toNat s' i (Nat.le_refl _)) fun n s2 j hj =>
        Wp.bind (D.mapEnd s2 j) fun _ _ k hk => Wp.pure ?_
      · intro t j hj
        refine Wp.bind (hrec _ _ t j (by omega)) fun a t' l hl => ?_
        obtain ⟨h3, h4⟩ := hl
        refine Wp.bind (hrec _ _ t' l (by omega)) fun b t'' l' hl' => Wp.pure ?_
        obtain ⟨h5, h6⟩ := hl'
        exact ⟨by omega, by show a.2 + b.2 + _ ≤ _; omega⟩
      · obtain ⟨h3, h4⟩ := hj
        have h5 := h.2
        simp only [Shrinks, id] at hk h4
        exact ⟨by omega, by show n + 1 + _ ≤ _; omega⟩
    · refine Wp.bind ((D.setBegin s inp hB).also (R := fun x => x.1.2 < 2147483648) (Z.set s)) fun r s' i h => Wp.ite (fun _ => Wp.pure (R _ _ _ h.1.1)) fun he => ?_
      have h2 := h.1.2 (by simpa using he)
      refine Wp.bind (wp_repeatWork (A := i.length) (c := 1) ?_ r.1.2.toNat s' i (Nat.le_refl _)) fun n s2 j hj =>
        Wp.bind (D.setEnd s2 j) fun _ _ k hk => Wp.pure ?_
      · intro t j hj
        exact Wp.bind (hrec _ _ t j (by omega)) fun a t' l hl => Wp.pure hl
      · obtain ⟨h3, h4⟩ := hj
        have h5 := h.2
        simp only [Shrinks, id] at hk h4
        exact ⟨by omega, by show n + 1 + _ ≤ _; omega⟩
    · refine Wp.bind ((D.listBegin s inp hB).also (R := fun x => x.1.2 < 2147483648) (Z.list s)) fun r s' i h => Wp.ite (fun _ => Wp.pure (R _ _ _ h.1.1)) fun he => ?_
      have h2 := h.1.2 (by simpa using he)
      refine Wp.bind (wp_repeatWork (A := i.length) (c := 1) ?_ r.1.2.toNat s' i (Nat.le_refl _)) fun n s2 j hj =>
        Wp.bind (D.listEnd s2 j) fun _ _ k hk => Wp.pure ?_
      · intro t j hj
        exact Wp.bind (hrec _ _ t j (by omega)) fun a t' l hl => Wp.pure hl
      · obtain ⟨h3, h4⟩ := hj
        have h5 := h.2
        simp only [Shrinks, id] at hk h4
        exact ⟨by omega, by show n + 1 + _ ≤ _; omega⟩
end

theorem toInt_small (v : I32) : v.toInt < 2147483648 := by
  have := BitVec.toInt_lt (x := v)
  omega

theorem zero_small : (0 : Int) < 2147483648 := by decide

theorem all_ite {c : Prop} [Decidable c] {a b : P π α} {s : π} {Q : α × π → Prop} (ha : (a s).All Q) (hb : (b s).All Q) :
    ((if c then a else b : P π α) s).All Q := by
  split <;> assumption

theorem all_bind {m : P π α} {k : α → P π β} {s : π} {Q : β × π → Prop} (h : ∀ a s, (k a s).All Q) : ((m >>= k : P π β) s).All Q :=
  Prog.All.bind (Prog.All.top (m s)) fun x _ => h x.1 x.2

theorem binary_sized : binary.Sized where
  map _ := all_bind fun _ _ => all_ite zero_small (all_bind fun _ _ => all_ite zero_small (all_bind fun r _ =>
    all_ite (toInt_small r.1) (toInt_small r.1)))
  set _ := all_bind fun _ _ => all_ite zero_small (all_bind fun r _ => all_ite (toInt_small r.1) (toInt_small r.1))
  list _ := all_bind fun _ _ => all_ite zero_small (all_bind fun r _ => all_ite (toInt_small r.1) (toInt_small r.1))

theorem compact_listSized (f : Nat) (s : Cmp) : (CompactProtocol.readListBegin f s).All fun x => x.1.1.2 < 2147483648 := by
  unfold CompactProtocol.readListBegin
  refine all_bind fun r _ => all_ite zero_small ?_
  have hr : (((r.1 >>> 4) &&& 0x0f).toNat : Int) < 2147483648 := by
    have := ((r.1 >>> 4) &&& 0x0f).isLt
    omega
  have K : ∀ (z : Int) (e : GoErr) (s : Cmp), z < 2147483648 → Prog.All (fun x => x.1.1.2 < 2147483648)
      ((if e.isSome = true then pure ((TT.STOP, z), protocolFromOsError e)
        else if (CompactProtocol.getTType r.1).2.isSome = true then
          pure (((CompactProtocol.getTType r.1).1, z), protocolFromOsError (CompactProtocol.getTType r.1).2)
        else pure (((CompactProtocol.getTType r.1).1, z), none) : P Cmp ((TType × Int) × GoErr)) s) :=
    fun z e s h => all_ite h (all_ite h h)
  refine all_ite ?_ ?_
  · refine Prog.All.bind (Q := fun x => x.1.1 < 2147483648) ?_ fun x h => K x.1.1 x.1.2 x.2 h
    refine all_bind fun x _ => ?_
    show (if x.2.isSome = true then _ else _ : Int) < _
    split
    · exact hr
    · exact toInt_small x.1
  · exact K _ none _ hr

theorem compact_sized (f : Nat) : (compact f).Sized where
  map s := by
    show (CompactProtocol.readMapBegin f s).All _
    unfold CompactProtocol.readMapBegin
    refine all_bind fun r _ => all_ite (toInt_small r.1) ?_
    exact all_ite (all_bind fun _ _ => all_ite (toInt_small r.1) (toInt_small r.1)) (toInt_small r.1)
  set s := compact_listSized f s
  list s := compact_listSized f s

/-! ## Proper values -/

theorem runs_counted {m : P π (α × GoErr)} {s s' : π} {bs : Bytes} {a : α} (h : Reads m s s' bs a) :
    Runs (do return ((← m).2, 1)) s s' bs ((none, 1) : GoErr × Nat) := by
  intro rest out; simp [h rest out]

theorem runs_last {m : P π GoErr} {s s' : π} {bs : Bytes} {e : GoErr} {n : Nat} (h : Runs m s s' bs e) :
    Runs (do let e ← m; return (e, n)) s s' bs (e, n) := by
  intro rest out; simp [h rest out]

theorem runs_count {m : P π (GoErr × Nat)} {s s' : π} {bs : Bytes} {e : GoErr} {n : Nat} (h : Runs m s s' bs (e, n)) :
    Runs (do let (_, a) ← m; return a) s s' bs n := by
  intro rest out; simp [h rest out]

theorem runs_plus {m : P π Nat} {s s' : π} {bs : Bytes} {a n : Nat} (h : Runs m s s' bs n) :
    Runs (do let b ← m; return a + b) s s' bs (a + n) := by
  intro rest out; simp [h rest out]

section
variable {p : Proto π}

mutual
theorem Dec.skipWork (msd : Int) : ∀ (v : Val) {s s' : π} {bs : Bytes} (fuel : Nat) (d : Int), v.size ≤ fuel → Dec p v s s' bs →
    Runs (skipWork p msd fuel v.type d) s s' bs (none, v.nodes)
  | .bool b, _, _, _, fuel + 1, _, _, h => runs_counted h
  | .byte b, _, _, _, fuel + 1, _, _, h => runs_counted h
  | .i16 b, _, _, _, fuel + 1, _, _, h => runs_counted h
  | .i32 b, _, _, _, fuel + 1, _, _, h => runs_counted h
  | .i64 b, _, _, _, fuel + 1, _, _, h => runs_counted h
  | .double b, _, _, _, fuel + 1, _, _, h => runs_counted h
  | .str b, _, _, _, fuel + 1, _, _, h => runs_counted h.1
  | .struct fs, s, s', bs, fuel + 1, d, hf, h => by
    obtain ⟨s₁, s₂, a, b, c, n, h1, h2, h3, rfl⟩ := h
    simp only [Val.size] at hf
    show Runs (p.readStructBegin >>= _ : P π (GoErr × Nat)) _ _ _ _
    rstep h1
    rstep (DecFields.skipFieldsWork msd fs fuel fuel (d - 1) (by omega) (by omega) h2)
    exact runs_last h3
  | .map kt vt ps, s, s', bs, fuel + 1, d, hf, h => by
    obtain ⟨s₁, s₂, a, b, c, h1, h2, h3, rfl⟩ := h
    simp only [Val.size] at hf
    show Runs (p.readMapBegin >>= _ : P π (GoErr × Nat)) _ _ _ _
    rstep h1
    simp only [Int.toNat_natCast]
    rstep (DecPairs.skipPairsWork msd kt vt ps fuel (d - 1) (by omega) h2)
    exact runs_last h3
  | .set t vs, s, s', bs, fuel + 1, d, hf, h => by
    obtain ⟨s₁, s₂, a, b, c, h1, h2, h3, rfl⟩ := h
    simp only [Val.size] at hf
    show Runs (p.readSetBegin >>= _ : P π (GoErr × Nat)) _ _ _ _
    rstep h1
    simp only [Int.toNat_natCast]
    rstep (DecVals.skipValsWork msd t vs fuel (d - 1) (by omega) h2)
    exact runs_last h3
  | .list t vs, s, s', bs, fuel + 1, d, hf, h => by
    obtain ⟨s₁, s₂, a, b, c, h1, h2, h3, rfl⟩ := h
    simp only [Val.size] at hf
    show Runs (p.readListBegin >>= _ : P π (GoErr × Nat)) _ _ _ _
    rstep h1
    simp only [Int.toNat_natCast]
    rstep (DecVals.skipValsWork msd t vs fuel (d - 1) (by omega) h2)
    exact runs_last h3
  | v, _, _, _, 0, _, hf, h => by
    have := v.size_pos
    omega
theorem DecFields.skipFieldsWork (msd : Int) : ∀ (fs : Fields) {s s' : π} {bs : Bytes} (fuel n : Nat) (d : Int),
    fs.size ≤ fuel → fs.size ≤ n → DecFields p fs s s' bs →
    Runs (Thrift.skipFieldsWork p (fun t => Thrift.skipWork p msd fuel t d) n) s s' bs fs.nodes
  | .nil, _, _, _, fuel, 0, _, hf, hn, _ => by simp [Fields.size] at hn
  | .cons id v r, _, _, _, fuel, 0, _, hf, hn, _ => by
    have := v.size_pos
    simp only [Fields.size] at hn; omega
  | .nil, s, s', bs, fuel, n + 1, d, hf, hn, h => by
    obtain ⟨id, h⟩ := h
    refine Runs.congr (a := bs ++ []) ?_ (by simp)
    show Runs (p.readFieldBegin >>= _ : P π Nat) _ _ _ _
    rstep h
    exact Runs.pure _ _
  | .cons id v r, s, s', bs, fuel, n + 1, d, hf, hn, h => by
    obtain ⟨s₁, s₂, s₃, a, b, c, e, h1, h2, h3, h4, rfl⟩ := h
    have hp := v.size_pos
    simp only [Fields.size] at hn hf
    show Runs (p.readFieldBegin >>= _ : P π Nat) _ _ _ _
    rstep h1
    simp only [v.type_ne_stop, if_false]
    rstep (Dec.skipWork msd v fuel d (by omega) h2)
    rstep h3
    exact runs_plus (DecFields.skipFieldsWork msd r fuel n d (by omega) (by omega) h4)
theorem DecVals.skipValsWork (msd : Int) : ∀ (t : Byte) (vs : Vals) {s s' : π} {bs : Bytes} (fuel : Nat) (d : Int),
    vs.size ≤ fuel → DecVals p t vs s s' bs →
    Runs (repeatWork vs.length (do let (_, a) ← Thrift.skipWork p msd fuel t d; return a)) s s' bs vs.nodes
  | t, .nil, _, _, _, fuel, _, _, h => by
    obtain ⟨rfl, rfl⟩ := h
    exact Runs.pure _ _
  | t, .cons v r, _, _, _, fuel, d, hf, h => by
    obtain ⟨s₁, a, b, rfl, h1, h2, rfl⟩ := h
    simp only [Vals.size] at hf
    simp only [Vals.length, repeatWork]
    rstep (runs_count (Dec.skipWork msd v fuel d (by omega) h1))
    exact runs_plus (DecVals.skipValsWork msd v.type r fuel d (by omega) h2)
theorem DecPairs.skipPairsWork (msd : Int) : ∀ (kt vt : Byte) (ps : Pairs) {s s' : π} {bs : Bytes} (fuel : Nat) (d : Int),
    ps.size ≤ fuel → DecPairs p kt vt ps s s' bs →
    Runs (repeatWork ps.length (do
        let (_, a) ← Thrift.skipWork p msd fuel kt d
        let (_, b) ← Thrift.skipWork p msd fuel vt msd
        return a + b)) s s' bs ps.nodes
  | kt, vt, .nil, _, _, _, fuel, _, _, h => by
    obtain ⟨rfl, rfl⟩ := h
    exact Runs.pure _ _
  | kt, vt, .cons k v r, _, _, _, fuel, d, hf, h => by
    obtain ⟨s₁, s₂, a, b, c, rfl, rfl, h1, h2, h3, rfl⟩ := h
    simp only [Pairs.size] at hf
    simp only [Pairs.length, repeatWork]
    have hb : Runs (do let (_, b) ← Thrift.skipWork p msd fuel v.type msd; return k.nodes + b) s₁ s₂ b (k.nodes + v.nodes) := by
      intro rest out; simp [Dec.skipWork msd v fuel msd (by omega) h2 rest out]
    refine Runs.congr (a := (a ++ b) ++ c) ?_ (by simp)
    rstep (Runs.bind (Dec.skipWork msd k fuel d (by omega) h1) hb)
    exact runs_plus (DecPairs.skipPairsWork msd k.type v.type r fuel d (by omega) h3)
end
end

/-! ## No value is shorter than the values in it are many -/

mutual
theorem binary_nodes : ∀ v : Val, v.nodes ≤ (BinarySpec.encode v).length
  | .bool _ | .byte _ | .i16 _ | .i32 _ | .i64 _ | .double _ => by simp [Val.nodes, BinarySpec.encode, be_length]
  | .str b => by simp [Val.nodes, BinarySpec.encode, be_length]; omega
  | .struct fs => by have := binary_fields fs; simp only [Val.nodes, BinarySpec.encode]; omega
  | .map _ _ ps => by have := binary_pairs ps; simp [Val.nodes, BinarySpec.encode, be_length]; omega
  | .set _ vs => by have := binary_vals vs; simp [Val.nodes, BinarySpec.encode, be_length]; omega
  | .list _ vs => by have := binary_vals vs; simp [Val.nodes, BinarySpec.encode, be_length]; omega
theorem binary_fields : ∀ fs : Fields, fs.nodes + 1 ≤ (BinarySpec.encodeFields fs).length
  | .nil => by simp [Fields.nodes, BinarySpec.encodeFields]
  | .cons _ v r => by
    have := binary_nodes v; have := binary_fields r
    simp [Fields.nodes, BinarySpec.encodeFields, be_length]; omega
theorem binary_vals : ∀ vs : Vals, vs.nodes ≤ (BinarySpec.encodeVals vs).length
  | .nil => by simp [Vals.nodes]
  | .cons v r => by have := binary_nodes v; have := binary_vals r; simp [Vals.nodes, BinarySpec.encodeVals]; omega
theorem binary_pairs : ∀ ps : Pairs, ps.nodes ≤ (BinarySpec.encodePairs ps).length
  | .nil => by simp [Pairs.nodes]
  | .cons k v r => by
    have := binary_nodes k; have := binary_nodes v; have := binary_pairs r; simp [Pairs.nodes, BinarySpec.encodePairs]; omega
end

theorem listHeader_pos (t : Byte) (n : Nat) : 0 < (CompactSpec.listHeader t n).length := by
  unfold CompactSpec.listHeader; split <;> simp
theorem mapHeader_pos (t t' : Byte) (n : Nat) : 0 < (CompactSpec.mapHeader t t' n).length := by
  unfold CompactSpec.mapHeader; split <;> simp
theorem fieldHeader_pos (l i : Int) (n : Nat) : 0 < (CompactSpec.fieldHeader l i n).length := by
  unfold CompactSpec.fieldHeader; split <;> simp

mutual
theorem compact_nodes : ∀ v : Val, v.nodes ≤ (CompactSpec.encode v).length
  | .bool _ | .byte _ => by simp [Val.nodes, CompactSpec.encode]
  | .double _ => by simp [Val.nodes, CompactSpec.encode, le]
  | .i16 _ | .i32 _ | .i64 _ => by simp only [Val.nodes, CompactSpec.encode]; exact leb128_pos _
  | .str b => by have := leb128_pos b.length; simp [Val.nodes, CompactSpec.encode]; omega
  | .struct fs => by have := compact_fields 0 fs; simp only [Val.nodes, CompactSpec.encode]; omega
  | .map k v ps => by
    have := compact_pairs ps; have := mapHeader_pos k v ps.length; simp [Val.nodes, CompactSpec.encode]; omega
  | .set t vs => by have := compact_vals vs; have := listHeader_pos t vs.length; simp [Val.nodes, CompactSpec.encode]; omega
  | .list t vs => by have := compact_vals vs; have := listHeader_pos t vs.length; simp [Val.nodes, CompactSpec.encode]; omega
theorem compact_fields : ∀ (l : Int) (fs : Fields), fs.nodes + 1 ≤ (CompactSpec.encodeFields l fs).length
  | _, .nil => by simp [Fields.nodes, CompactSpec.encodeFields]
  | l, .cons id v r => by
    have := compact_fields id.toInt r
    cases v with
    | bool b =>
      have := fieldHeader_pos l id.toInt (if b then 1 else 2)
      simp only [Fields.nodes, Val.nodes, CompactSpec.encodeFields, List.length_append]; omega
    | byte x => have := compact_nodes (.byte x); simp only [Fields.nodes, CompactSpec.encodeFields, List.length_append]; omega
    | i16 x => have := compact_nodes (.i16 x); simp only [Fields.nodes, CompactSpec.encodeFields, List.length_append]; omega
    | i32 x => have := compact_nodes (.i32 x); simp only [Fields.nodes, CompactSpec.encodeFields, List.length_append]; omega
    | i64 x => have := compact_nodes (.i64 x); simp only [Fields.nodes, CompactSpec.encodeFields, List.length_append]; omega
    | double x => have := compact_nodes (.double x); simp only [Fields.nodes, CompactSpec.encodeFields, List.length_append]; omega
    | str x => have := compact_nodes (.str x); simp only [Fields.nodes, CompactSpec.encodeFields, List.length_append]; omega
    | struct x => have := compact_nodes (.struct x); simp only [Fields.nodes, CompactSpec.encodeFields, List.length_append]; omega
    | map k t x => have := compact_nodes (.map k t x); simp only [Fields.nodes, CompactSpec.encodeFields, List.length_append]; omega
    | set t x => have := compact_nodes (.set t x); simp only [Fields.nodes, CompactSpec.encodeFields, List.length_append]; omega
    | list t x => have := compact_nodes (.list t x); simp only [Fields.nodes, CompactSpec.encodeFields, List.length_append]; omega
theorem compact_vals : ∀ vs : Vals, vs.nodes ≤ (CompactSpec.encodeVals vs).length
  | .nil => by simp [Vals.nodes]
  | .cons v r => by have := compact_nodes v; have := compact_vals r; simp [Vals.nodes, CompactSpec.encodeVals]; omega
theorem compact_pairs : ∀ ps : Pairs, ps.nodes ≤ (CompactSpec.encodePairs ps).length
  | .nil => by simp [Pairs.nodes]
  | .cons k v r => by
    have := compact_nodes k; have := compact_nodes v; have := compact_pairs r; simp [Pairs.nodes, CompactSpec.encodePairs]; omega
end

mutual
theorem Val.nodes_norm : ∀ v : Val, v.norm.nodes = v.nodes
  | .bool _ | .byte _ | .i16 _ | .i32 _ | .i64 _ | .double _ | .str _ => by simp [Val.norm]
  | .struct fs => by simp [Val.norm, Val.nodes, Fields.nodes_norm fs]
  | .map _ _ .nil => by simp [Val.norm, Val.nodes]
  | .map _ _ (.cons k v r) => by simp [Val.norm, Val.nodes, Pairs.nodes, Val.nodes_norm k, Val.nodes_norm v, Pairs.nodes_norm r]
  | .set _ vs => by simp [Val.norm, Val.nodes, Vals.nodes_norm vs]
  | .list _ vs => by simp [Val.norm, Val.nodes, Vals.nodes_norm vs]
theorem Fields.nodes_norm : ∀ fs : Fields, fs.norm.nodes = fs.nodes
  | .nil => rfl
  | .cons _ v r => by simp [Fields.norm, Fields.nodes, Val.nodes_norm v, Fields.nodes_norm r]
theorem Vals.nodes_norm : ∀ vs : Vals, vs.norm.nodes = vs.nodes
  | .nil => rfl
  | .cons v r => by simp [Vals.norm, Vals.nodes, Val.nodes_norm v, Vals.nodes_norm r]
theorem Pairs.nodes_norm : ∀ ps : Pairs, ps.norm.nodes = ps.nodes
  | .nil => rfl
  | .cons k v r => by simp [Pairs.norm, Pairs.nodes, Val.nodes_norm k, Val.nodes_norm v, Pairs.nodes_norm r]
end

end Thrift
