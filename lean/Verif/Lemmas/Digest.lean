import Verif.Lemmas.Halts
import Verif.Lemmas.ReadTotal
import Verif.Lemmas.CompactTotal
/-!
# Generated readers, writers and processors come to an end
-/

namespace Thrift

/-- Any panic. -/
def AnyPanic : Bytes → Prop := fun _ => True

/-- The input does not grow. -/
def Shrinks (inp : Bytes) : α → π → Bytes → Prop := fun _ _ i => i.length ≤ inp.length

/-- Nor stay the same without an error. -/
def Bites (inp : Bytes) : α × GoErr → π → Bytes → Prop := fun r _ i => i.length ≤ inp.length ∧ (r.2 = none → i.length < inp.length)

/-- The read calls end on inputs shorter than `B`; what begins a container or a
field takes something off the input. -/
structure Proto.Digests (p : Proto π) (B : Nat) : Prop where
  messageBegin : ∀ s inp, inp.length < B → Wp p.readMessageBegin s inp (Shrinks inp) AnyPanic
  messageEnd : ∀ s inp, Wp p.readMessageEnd s inp (Shrinks inp) AnyPanic
  structBegin : ∀ s inp, Wp p.readStructBegin s inp (Shrinks inp) AnyPanic
  structEnd : ∀ s inp, Wp p.readStructEnd s inp (Shrinks inp) AnyPanic
  fieldBegin : ∀ s inp, inp.length < B → Wp p.readFieldBegin s inp (fun r _ i => i.length ≤ inp.length ∧
    (r.1.2.1 ≠ TT.STOP → i.length < inp.length)) AnyPanic
  fieldEnd : ∀ s inp, Wp p.readFieldEnd s inp (Shrinks inp) AnyPanic
  mapBegin : ∀ s inp, inp.length < B → Wp p.readMapBegin s inp (Bites inp) AnyPanic
  mapEnd : ∀ s inp, Wp p.readMapEnd s inp (Shrinks inp) AnyPanic
  listBegin : ∀ s inp, inp.length < B → Wp p.readListBegin s inp (Bites inp) AnyPanic
  listEnd : ∀ s inp, Wp p.readListEnd s inp (Shrinks inp) AnyPanic
  setBegin : ∀ s inp, inp.length < B → Wp p.readSetBegin s inp (Bites inp) AnyPanic
  setEnd : ∀ s inp, Wp p.readSetEnd s inp (Shrinks inp) AnyPanic
  bool : ∀ s inp, Wp p.readBool s inp (Shrinks inp) AnyPanic
  byte : ∀ s inp, Wp p.readByte s inp (Shrinks inp) AnyPanic
  i16 : ∀ s inp, inp.length < B → Wp p.readI16 s inp (Shrinks inp) AnyPanic
  i32 : ∀ s inp, inp.length < B → Wp p.readI32 s inp (Shrinks inp) AnyPanic
  i64 : ∀ s inp, inp.length < B → Wp p.readI64 s inp (Shrinks inp) AnyPanic
  double : ∀ s inp, Wp p.readDouble s inp (Shrinks inp) AnyPanic
  string : ∀ s inp, inp.length < B → Wp p.readString s inp (Shrinks inp) AnyPanic
  binary : ∀ s inp, inp.length < B → Wp p.readBinary s inp (Shrinks inp) AnyPanic

section
variable {p : Proto π} {B : Nat} (D : p.Digests B) {S : Schema} {L : FloatLib} {mem : List Nat → Nat} {msd : Int}
include D

theorem wp_skipFields' (f : TType → P π GoErr) (A : Nat) (hA : A < B)
    (hf : ∀ t s (i : Bytes), i.length < A → Wp (f t) s i (Shrinks i) AnyPanic) :
    ∀ (n : Nat) (s : π) (inp : Bytes), inp.length ≤ A → inp.length < n → Wp (skipFields p f n) s inp (Shrinks inp) AnyPanic
  | 0, _, _, _, h => by omega
  | n + 1, s, inp, hi, hn => by
    unfold skipFields
    refine Wp.bind (D.fieldBegin s inp (by omega)) fun r s' i h => Wp.ite (fun _ => Wp.pure h.1) fun ht => ?_
    have hlt := h.2 ht
    refine Wp.bind (hf _ s' i (by omega)) fun _ s2 j hj => Wp.bind (D.fieldEnd s2 j) fun _ s3 k hk => ?_
    simp only [Shrinks] at hj hk
    exact Wp.mono (wp_skipFields' f A hA hf n s3 k (by omega) (by omega)) fun _ _ l hl => by simp only [Shrinks] at hl ⊢; omega

theorem wp_skip' (msd : Int) : ∀ (fuel : Nat) (t : TType) (d : Int) (s : π) (inp : Bytes), inp.length + 1 < fuel → inp.length < B →
    Wp (skip p msd fuel t d) s inp (Shrinks inp) AnyPanic
  | 0, _, _, _, _, h, _ => by omega
  | fuel + 1, t, d, s, inp, hf, hB => by
    have hrec : ∀ t d s (i : Bytes), i.length < inp.length → Wp (skip p msd fuel t d) s i (Shrinks i) AnyPanic :=
      fun t d s i hi => wp_skip' msd fuel t d s i (by omega) (by omega)
    have M {α : Type} {m : P π (α × GoErr)} (h : Wp m s inp (Shrinks inp) AnyPanic) :
        Wp (do return (← m).2) s inp (Shrinks inp) AnyPanic := Wp.bind h fun _ _ _ h => Wp.pure h
    have R0 : Shrinks inp (none : GoErr) s inp := Nat.le_refl _
    have R1 : ∀ e : GoErr, Shrinks inp e s inp := fun _ => Nat.le_refl _
    unfold skip
    refine Wp.ite (fun _ => Wp.pure (R1 _)) fun _ => ?_
    refine Wp.ite (fun _ => M (D.bool s inp)) fun _ => ?_
    refine Wp.ite (fun _ => M (D.byte s inp)) fun _ => ?_
    refine Wp.ite (fun _ => M (D.i16 s inp hB)) fun _ => ?_
    refine Wp.ite (fun _ => M (D.i32 s inp hB)) fun _ => ?_
    refine Wp.ite (fun _ => M (D.i64 s inp hB)) fun _ => ?_
    refine Wp.ite (fun _ => M (D.double s inp)) fun _ => ?_
    refine Wp.ite (fun _ => M (D.string s inp hB)) fun _ => ?_
    refine Wp.ite (fun _ => ?_) fun _ => Wp.ite (fun _ => ?_) fun _ => Wp.ite (fun _ => ?_) fun _ =>
      Wp.ite (fun _ => ?_) fun _ => Wp.pure (R1 _)
    · refine Wp.bind (D.structBegin s inp) fun r s' i h => Wp.ite (fun _ => Wp.pure h) fun _ => ?_
      simp only [Shrinks] at h
      refine Wp.bind (wp_skipFields' D _ i.length (by omega) (fun t s j hj => hrec t _ s j (by omega)) fuel s' i (Nat.le_refl _) (by omega))
        fun _ s2 j hj => ?_
      simp only [Shrinks] at hj
      exact Wp.mono (D.structEnd s2 j) fun _ _ k hk => by simp only [Shrinks] at hk ⊢; omega
    · refine Wp.bind (D.mapBegin s inp hB) fun r s' i h => Wp.ite (fun _ => Wp.pure h.1) fun he => ?_
      have h2 := h.2 (by simpa using he)
      refine Wp.bind (Wp.repeatN (I := fun _ j => j.length < inp.length) ?_ _ s' i h2) fun _ s2 j hj => ?_
      · intro t j hj
        refine Wp.bind (hrec _ _ t j hj) fun _ t' l hl => ?_
        simp only [Shrinks] at hl
        exact Wp.bind (hrec _ _ t' l (by omega)) fun _ t'' l' hl' => Wp.pure (by simp only [Shrinks] at hl'; omega)
      · exact Wp.mono (D.mapEnd s2 j) fun _ _ k hk => by simp only [Shrinks] at hk ⊢; omega
    · refine Wp.bind (D.setBegin s inp hB) fun r s' i h => Wp.ite (fun _ => Wp.pure h.1) fun he => ?_
      have h2 := h.2 (by simpa using he)
      refine Wp.bind (Wp.repeatN (I := fun _ j => j.length < inp.length) ?_ _ s' i h2) fun _ s2 j hj => ?_
      · intro t j hj
        exact Wp.bind (hrec _ _ t j hj) fun _ t' l hl => Wp.pure (by simp only [Shrinks] at hl; omega)
      · exact Wp.mono (D.setEnd s2 j) fun _ _ k hk => by simp only [Shrinks] at hk ⊢; omega
    · refine Wp.bind (D.listBegin s inp hB) fun r s' i h => Wp.ite (fun _ => Wp.pure h.1) fun he => ?_
      have h2 := h.2 (by simpa using he)
      refine Wp.bind (Wp.repeatN (I := fun _ j => j.length < inp.length) ?_ _ s' i h2) fun _ s2 j hj => ?_
      · intro t j hj
        exact Wp.bind (hrec _ _ t j hj) fun _ t' l hl => Wp.pure (by simp only [Shrinks] at hl; omega)
      · exact Wp.mono (D.listEnd s2 j) fun _ _ k hk => by simp only [Shrinks] at hk ⊢; omega

omit D in
theorem wp_ofRes {r : Res α} (h : r ≠ .stuck) (s : π) (inp : Bytes) : Wp (P.ofRes r) s inp (fun _ _ i => i = inp) AnyPanic := by
  cases r with
  | ok a => exact Wp.pure rfl
  | panic => exact Wp.panic trivial
  | stuck => exact absurd rfl h

omit D in
theorem wp_readList {rd : Nat → P π (Dyn × GoErr)} {A : Nat} (h : ∀ i s (inp : Bytes), inp.length ≤ A → Wp (rd i) s inp (Shrinks inp) AnyPanic) :
    ∀ (n i : Nat) (l : TList) (s : π) (inp : Bytes), inp.length ≤ A → Wp (genReadList L rd n i l) s inp (Shrinks inp) AnyPanic
  | 0, _, _, _, _, _ => Wp.pure (Nat.le_refl _)
  | n + 1, i, l, s, inp, hA => by
    unfold genReadList
    refine Wp.bind (h i s inp hA) fun r s' j hj => Wp.ite (fun _ => Wp.pure hj) fun _ => ?_
    refine Wp.bind (wp_ofRes (push_halts L l r.1) s' j) fun l' s2 j' hj' => ?_
    subst hj'
    simp only [Shrinks] at hj
    exact Wp.mono (wp_readList h n (i + 1) l' s2 j' (by omega)) fun _ _ k hk => by simp only [Shrinks] at hk ⊢; omega

omit D in
theorem wp_readSet {rd : Nat → P π (Dyn × GoErr)} {A : Nat} (h : ∀ i s (inp : Bytes), inp.length ≤ A → Wp (rd i) s inp (Shrinks inp) AnyPanic) :
    ∀ (n i : Nat) (l : TSet) (s : π) (inp : Bytes), inp.length ≤ A → Wp (genReadSet L rd n i l) s inp (Shrinks inp) AnyPanic
  | 0, _, _, _, _, _ => Wp.pure (Nat.le_refl _)
  | n + 1, i, l, s, inp, hA => by
    unfold genReadSet
    refine Wp.bind (h i s inp hA) fun r s' j hj => Wp.ite (fun _ => Wp.pure hj) fun _ => ?_
    refine Wp.bind (wp_ofRes (add_halts L l r.1) s' j) fun l' s2 j' hj' => ?_
    subst hj'
    simp only [Shrinks] at hj
    exact Wp.mono (wp_readSet h n (i + 1) l' s2 j' (by omega)) fun _ _ k hk => by simp only [Shrinks] at hk ⊢; omega

omit D in
theorem wp_readMap {rk rv : Nat → P π (Dyn × GoErr)} {A : Nat} (h : ∀ i s (inp : Bytes), inp.length ≤ A → Wp (rk i) s inp (Shrinks inp) AnyPanic)
    (h' : ∀ i s (inp : Bytes), inp.length ≤ A → Wp (rv i) s inp (Shrinks inp) AnyPanic) :
    ∀ (n i : Nat) (l : TMap) (s : π) (inp : Bytes), inp.length ≤ A → Wp (genReadMap L rk rv n i l) s inp (Shrinks inp) AnyPanic
  | 0, _, _, _, _, _ => Wp.pure (Nat.le_refl _)
  | n + 1, i, l, s, inp, hA => by
    unfold genReadMap
    refine Wp.bind (h _ s inp hA) fun r s' j hj => Wp.ite (fun _ => Wp.pure hj) fun _ => ?_
    simp only [Shrinks] at hj
    refine Wp.bind (h' _ s' j (by omega)) fun r' s2 k hk => Wp.ite (fun _ => Wp.pure (by simp only [Shrinks] at hk ⊢; omega)) fun _ => ?_
    simp only [Shrinks] at hk
    refine Wp.bind (wp_ofRes (set_halts L l r.1 r'.1) s2 k) fun l' s3 k' hk' => ?_
    subst hk'
    exact Wp.mono (wp_readMap h h' n (i + 1) l' s3 k' (by omega)) fun _ _ k hk => by simp only [Shrinks] at hk ⊢; omega

theorem wp_readFields' {rd : Bytes → Bytes → Member → P π (Dyn × GoErr)} {sk : TType → P π GoErr} {sd : StructDef} (A : Nat) (hA : A < B)
    (h : ∀ m fn sn s (i : Bytes), i.length < A → Wp (rd fn sn m) s i (Shrinks i) AnyPanic)
    (hs : ∀ t s (i : Bytes), i.length < A → Wp (sk t) s i (Shrinks i) AnyPanic) :
    ∀ (n : Nat) (attrs : Attrs) (s : π) (inp : Bytes), inp.length ≤ A → inp.length < n →
      Wp (genReadFields p rd sk sd n attrs) s inp (Shrinks inp) AnyPanic
  | 0, _, _, _, _, h' => by omega
  | n + 1, attrs, s, inp, hi, hn => by
    unfold genReadFields
    refine Wp.bind (D.fieldBegin s inp (by omega)) fun r s' i h1 => Wp.ite (fun _ => Wp.pure h1.1) fun _ =>
      Wp.ite (fun _ => Wp.pure h1.1) fun hstop => ?_
    have hlt := h1.2 fun hc => hstop (Bin.resolved_stop sd _ _ _ hc)
    refine Wp.bind (Q := Shrinks i) ?_ fun r s2 j hj => ?_
    · unfold genReadMember
      split
      · exact Wp.ite (fun _ => Wp.bind (h _ _ _ s' i (by omega)) fun _ _ _ h => Wp.pure h) fun _ =>
          Wp.ite (fun _ => Wp.bind (hs _ s' i (by omega)) fun _ _ _ h => Wp.pure h) fun _ =>
          Wp.bind (h _ _ _ s' i (by omega)) fun _ _ _ h => Wp.pure h
      · exact Wp.bind (hs _ s' i (by omega)) fun _ _ _ h => Wp.pure h
    · simp only [Shrinks] at hj
      refine Wp.ite (fun _ => Wp.pure (by simp only [Shrinks]; omega)) fun _ => Wp.bind (D.fieldEnd s2 j) fun _ s3 k hk => ?_
      simp only [Shrinks] at hk
      exact Wp.ite (fun _ => Wp.pure (by simp only [Shrinks]; omega)) fun _ =>
        Wp.mono (wp_readFields' A hA h hs n _ s3 k (by omega) (by omega)) fun _ _ l hl => by simp only [Shrinks] at hl ⊢; omega

theorem wp_readBody {sd : StructDef} {fields : Attrs → P π (Attrs × GoErr)} (attrs : Attrs) (s : π) (inp : Bytes)
    (h : ∀ a s (i : Bytes), i.length ≤ inp.length → Wp (fields a) s i (Shrinks i) AnyPanic) :
    Wp (genReadBody p sd attrs fields) s inp (Shrinks inp) AnyPanic := by
  refine Wp.bind (D.structBegin s inp) fun r s' i hi => Wp.ite (fun _ => Wp.pure hi) fun _ => ?_
  simp only [Shrinks] at hi
  refine Wp.bind (h _ s' i hi) fun r s2 j hj => Wp.ite (fun _ => Wp.pure (by simp only [Shrinks] at hj ⊢; omega)) fun _ => ?_
  simp only [Shrinks] at hj
  exact Wp.bind (D.structEnd s2 j) fun _ _ k hk => Wp.pure (by simp only [Shrinks] at hk ⊢; omega)

theorem wp_readVal' : ∀ (n : Nat) path fn sn ty (s : π) (inp : Bytes), inp.length + 2 < n → inp.length < B →
    Wp (genReadVal p S L mem msd n path fn sn ty) s inp (Shrinks inp) AnyPanic
  | 0, _, _, _, _, _, _, h, _ => by omega
  | n + 1, path, fn, sn, ty, s, inp, hn, hB => by
    have M : ∀ {α β : Type} {m : P π (α × GoErr)} {f : α × GoErr → β}, Wp m s inp (Shrinks inp) AnyPanic →
        Wp (do let x ← m; return f x) s inp (Shrinks inp) AnyPanic := fun h => Wp.bind h fun _ _ _ h => Wp.pure h
    cases ty with
    | bool => exact M (D.bool s inp)
    | byte => exact M (D.byte s inp)
    | i16 => exact M (D.i16 s inp hB)
    | i32 => exact M (D.i32 s inp hB)
    | i64 => exact M (D.i64 s inp hB)
    | double => exact M (D.double s inp)
    | string => exact M (D.string s inp hB)
    | binary => exact M (D.binary s inp hB)
    | enum k => exact M (D.i32 s inp hB)
    | struct k =>
      refine Wp.bind (wp_readBody D _ s inp fun a s i hi => ?_) fun _ _ _ h => Wp.pure h
      exact wp_readFields' D i.length (by omega) (fun m fn sn s j hj => wp_readVal' n _ _ _ _ s j (by omega) (by omega))
        (fun t s j hj => wp_skip' D msd n t _ s j (by omega) (by omega)) n _ s i (Nat.le_refl _) (by omega)
    | list e =>
      refine Wp.bind (D.listBegin s inp hB) fun r s' i h => Wp.ite (fun _ => Wp.pure h.1) fun he => ?_
      have h2 := h.2 (by simpa using he)
      refine Wp.bind (wp_readList (A := i.length) (fun k s j hj => wp_readVal' n _ _ _ _ s j (by omega) (by omega)) _ _ _ s' i (Nat.le_refl _))
        fun r s2 j hj => ?_
      simp only [Shrinks] at hj
      refine Wp.ite (fun _ => Wp.pure (by simp only [Shrinks]; omega)) fun _ => ?_
      exact Wp.bind (D.listEnd s2 j) fun _ _ k hk => Wp.pure (by simp only [Shrinks] at hk ⊢; omega)
    | set e =>
      refine Wp.bind (D.setBegin s inp hB) fun r s' i h => Wp.ite (fun _ => Wp.pure h.1) fun he => ?_
      have h2 := h.2 (by simpa using he)
      refine Wp.bind (wp_readSet (A := i.length) (fun k s j hj => wp_readVal' n _ _ _ _ s j (by omega) (by omega)) _ _ _ s' i (Nat.le_refl _))
        fun r s2 j hj => ?_
      simp only [Shrinks] at hj
      refine Wp.ite (fun _ => Wp.pure (by simp only [Shrinks]; omega)) fun _ => ?_
      exact Wp.bind (D.setEnd s2 j) fun _ _ k hk => Wp.pure (by simp only [Shrinks] at hk ⊢; omega)
    | map k v =>
      refine Wp.bind (D.mapBegin s inp hB) fun r s' i h => Wp.ite (fun _ => Wp.pure h.1) fun he => ?_
      have h2 := h.2 (by simpa using he)
      refine Wp.bind (wp_readMap (A := i.length) (fun k s j hj => wp_readVal' n _ _ _ _ s j (by omega) (by omega))
        (fun k s j hj => wp_readVal' n _ _ _ _ s j (by omega) (by omega)) _ _ _ s' i (Nat.le_refl _)) fun r s2 j hj => ?_
      simp only [Shrinks] at hj
      refine Wp.ite (fun _ => Wp.pure (by simp only [Shrinks]; omega)) fun _ => ?_
      exact Wp.bind (D.mapEnd s2 j) fun _ _ k hk => Wp.pure (by simp only [Shrinks] at hk ⊢; omega)

theorem wp_readInto' (n : Nat) (path : List Nat) (sd : StructDef) (attrs : Attrs) (s : π) (inp : Bytes) (hn : inp.length + 2 < n)
    (hB : inp.length < B) : Wp (genReadInto p S L mem msd n path sd attrs) s inp (Shrinks inp) AnyPanic :=
  wp_readBody D _ s inp fun _ s i hi => wp_readFields' D i.length (by omega)
    (fun _ _ _ s j hj => wp_readVal' D n _ _ _ _ s j (by omega) (by omega))
    (fun t s j hj => wp_skip' D msd n t _ s j (by omega) (by omega)) n _ s i (Nat.le_refl _) (by omega)

end

theorem binary_digests (B : Nat) : binary.Digests B where
  messageBegin s inp _ := (Bin.wp_message s inp).monoX fun _ _ => trivial
  messageEnd s inp := Wp.pure (Nat.le_refl _)
  structBegin s inp := Wp.pure (Nat.le_refl _)
  structEnd s inp := Wp.pure (Nat.le_refl _)
  fieldBegin s inp _ := (Bin.wp_fieldBegin s inp).monoX fun _ _ => trivial
  fieldEnd s inp := Wp.pure (Nat.le_refl _)
  mapBegin s inp _ := (Bin.wp_mapBegin s inp).monoX fun _ _ => trivial
  mapEnd s inp := Wp.pure (Nat.le_refl _)
  listBegin s inp _ := (Bin.wp_listBegin s inp).monoX fun _ _ => trivial
  listEnd s inp := Wp.pure (Nat.le_refl _)
  setBegin s inp _ := (Bin.wp_listBegin s inp).monoX fun _ _ => trivial
  setEnd s inp := Wp.pure (Nat.le_refl _)
  bool s inp := ((Bin.wp_bool s inp).mono fun _ _ _ h => h.1).monoX fun _ _ => trivial
  byte s inp := ((Bin.wp_byte s inp).mono fun _ _ _ h => h.1.1).monoX fun _ _ => trivial
  i16 s inp _ := ((Bin.wp_i16 s inp).mono fun _ _ _ h => h.1).monoX fun _ _ => trivial
  i32 s inp _ := ((Bin.wp_i32 s inp).mono fun _ _ _ h => h.1).monoX fun _ _ => trivial
  i64 s inp _ := ((Bin.wp_i64 s inp).mono fun _ _ _ h => h.1).monoX fun _ _ => trivial
  double s inp := ((Bin.wp_double s inp).mono fun _ _ _ h => h.1).monoX fun _ _ => trivial
  string s inp _ := ((Bin.wp_string s inp).mono fun _ _ _ h => h.1).monoX fun _ _ => trivial
  binary s inp _ := by
    show Wp BinaryProtocol.readBinary s inp _ _
    unfold BinaryProtocol.readBinary
    refine Wp.bind ((Bin.wp_i32 s inp).monoX fun _ _ => trivial) fun r s' i h => Wp.ite (fun _ => Wp.pure h.1) fun _ => ?_
    refine Wp.bind ((Bin.wp_check _ s' i).monoX fun _ _ => trivial) fun _ s2 j hj => ?_
    obtain rfl : j = i := by first | exact hj | exact hj.1 | exact hj.2
    refine Wp.ite (fun _ => Wp.pure h.1) fun _ => Wp.ite (fun _ => Wp.panic trivial) fun _ => ?_
    have h1 := h.1
    refine Wp.bind (Q := Shrinks inp) (Wp.readAll (fun _ => ?_) fun _ => ?_) fun _ _ _ h => Wp.pure h
    · simp only [Shrinks, List.length_drop]; omega
    · simp [Shrinks]

theorem compact_digests (f : Nat) : (compact f).Digests f where
  messageBegin s inp h := (Cmp.wp_messageBegin f s inp h fun _ => trivial).mono fun _ _ _ h => h.2
  messageEnd s inp := Wp.pure (Nat.le_refl _)
  structBegin s inp := Wp.bind (Q := fun _ _ i => i = inp) (Wp.modify rfl) fun _ _ _ h => Wp.pure (by rw [h]; exact Nat.le_refl _)
  structEnd s inp := by
    show Wp CompactProtocol.readStructEnd s inp _ _
    unfold CompactProtocol.readStructEnd
    refine Wp.bind (Q := fun _ _ i => i = inp) (Wp.get rfl) fun u t l hu => ?_
    subst hu
    split
    · first | exact Wp.panic trivial | exact Wp.pure (Nat.le_refl _)
    · exact Wp.bind (Q := fun _ _ i => i = l) (Wp.modify rfl) fun _ _ _ h => Wp.pure (by rw [h]; exact Nat.le_refl _)
  fieldBegin s inp h := (Cmp.wp_fieldBegin f s inp h).mono fun _ _ _ h => h.2
  fieldEnd s inp := Wp.pure (Nat.le_refl _)
  mapBegin s inp h := (Cmp.wp_mapBegin f s inp h).mono fun _ _ _ h => h.2
  mapEnd s inp := Wp.pure (Nat.le_refl _)
  listBegin s inp h := (Cmp.wp_listBegin f s inp h).mono fun _ _ _ h => h.2
  listEnd s inp := Wp.pure (Nat.le_refl _)
  setBegin s inp h := (Cmp.wp_listBegin f s inp h).mono fun _ _ _ h => h.2
  setEnd s inp := Wp.pure (Nat.le_refl _)
  bool s inp := (Cmp.wp_bool s inp).mono fun _ _ _ h => h.2
  byte s inp := (Cmp.wp_byte s inp).mono fun _ _ _ h => h.le
  i16 s inp h := (Cmp.wp_i16 f s inp h).mono fun _ _ _ h => h.le
  i32 s inp h := (Cmp.wp_i32 f s inp h).mono fun _ _ _ h => h.le
  i64 s inp h := (Cmp.wp_i64 f s inp h).mono fun _ _ _ h => h.le
  double s inp := (Cmp.wp_double s inp).mono fun _ _ _ h => h.le
  string s inp h := (Cmp.wp_string f s inp h fun _ => trivial).mono fun _ _ _ h => h.le
  binary s inp h := (Cmp.wp_binary f s inp h fun _ => trivial).mono fun _ _ _ h => h.le

end Thrift
