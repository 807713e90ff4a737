import Verif.Lemmas.Wp
import Verif.Lemmas.SkipTotal
import Verif.Lemmas.CompactHonest
/-!
# The compact protocol on arbitrary bytes
-/

namespace Thrift
open CompactProtocol

namespace Cmp

/-- What a read call does to the input and to the stack of field ids. -/
def Eats (s : Cmp) (inp : Bytes) : α × GoErr → Cmp → Bytes → Prop :=
  fun r s' i => s'.lastField = s.lastField ∧ i.length ≤ inp.length ∧ (r.2 = none → i.length < inp.length)

theorem Eats.le {s : Cmp} {inp : Bytes} {r : α × GoErr} {s' : Cmp} {i : Bytes} (h : Eats s inp r s' i) :
    i.length ≤ inp.length := h.2.1

theorem not_none_of_isSome {e : GoErr} (h : e.isSome = true) : protocolFromOsError e ≠ none := by
  have := isSome_protocolFromOsError e h
  intro h'; simp [h'] at this

variable {X : Bytes → Prop}

theorem wp_byte (s : Cmp) (inp : Bytes) : Wp readByte s inp (Eats s inp) X := by
  unfold readByte
  refine Wp.bind (Q := fun r s' j => s' = s ∧ j.length ≤ inp.length ∧ (r.err = none → j.length < inp.length))
    (Wp.readAll ?_ ?_) fun r s' j h => ?_
  · intro h; exact ⟨rfl, by simp, fun _ => by simp; omega⟩
  · intro h; exact ⟨rfl, by simp, fun h => by simp at h⟩
  · obtain ⟨rfl, h1, h2⟩ := h
    exact Wp.ite (fun he => Wp.pure ⟨rfl, h1, fun hn => absurd hn (not_none_of_isSome he)⟩)
      fun he => Wp.pure ⟨rfl, h1, fun _ => h2 (by simpa using he)⟩

theorem wp_varintLoop : ∀ (fuel shift : Nat) (result : I64) (s : Cmp) (inp : Bytes), inp.length < fuel →
    Wp (readVarint64Loop fuel shift result) s inp (Eats s inp) X
  | 0, _, _, _, _, h => by omega
  | fuel + 1, shift, result, s, inp, h => by
    unfold readVarint64Loop
    refine Wp.bind (wp_byte s inp) fun r s' i hr => ?_
    obtain ⟨h0, h1, h2⟩ := hr
    refine Wp.ite (fun he => Wp.pure ⟨h0, h1, h2⟩) fun he => ?_
    have h2 := h2 (by simpa using he)
    refine Wp.ite (fun _ => Wp.pure ⟨h0, h1, fun _ => h2⟩) fun _ => ?_
    exact (wp_varintLoop fuel _ _ s' i (by omega)).mono fun a t j hj =>
      ⟨hj.1.trans h0, by have := hj.2.1; omega, fun _ => by have := hj.2.1; omega⟩

theorem wp_varint64 (f : Nat) (s : Cmp) (inp : Bytes) (h : inp.length < f) :
    Wp (readVarint64 f) s inp (Eats s inp) X := wp_varintLoop f 0 0 s inp h
theorem wp_varint32 (f : Nat) (s : Cmp) (inp : Bytes) (h : inp.length < f) :
    Wp (readVarint32 f) s inp (Eats s inp) X :=
  Wp.bind (wp_varint64 f s inp h) fun _ _ _ h => Wp.pure h
theorem wp_i32 (f : Nat) (s : Cmp) (inp : Bytes) (h : inp.length < f) :
    Wp (readI32 f) s inp (Eats s inp) X :=
  Wp.bind (wp_varint32 f s inp h) fun _ _ _ h =>
    Wp.ite (fun he => Wp.pure ⟨h.1, h.2.1, fun hn => absurd hn (not_none_of_isSome he)⟩)
      fun he => Wp.pure ⟨h.1, h.2.1, fun _ => h.2.2 (by simpa using he)⟩
theorem wp_i64 (f : Nat) (s : Cmp) (inp : Bytes) (h : inp.length < f) :
    Wp (readI64 f) s inp (Eats s inp) X :=
  Wp.bind (wp_varint64 f s inp h) fun _ _ _ h =>
    Wp.ite (fun he => Wp.pure ⟨h.1, h.2.1, fun hn => absurd hn (not_none_of_isSome he)⟩)
      fun he => Wp.pure ⟨h.1, h.2.1, fun _ => h.2.2 (by simpa using he)⟩
theorem wp_i16 (f : Nat) (s : Cmp) (inp : Bytes) (h : inp.length < f) :
    Wp (readI16 f) s inp (Eats s inp) X :=
  Wp.bind (wp_i32 f s inp h) fun _ _ _ h => Wp.pure h

theorem wp_double (s : Cmp) (inp : Bytes) : Wp readDouble s inp (Eats s inp) X := by
  unfold readDouble
  refine Wp.bind (Q := fun r s' j => s' = s ∧ j.length ≤ inp.length ∧ (r.err = none → j.length < inp.length))
    (Wp.readAll ?_ ?_) fun r s' j h => ?_
  · intro h; exact ⟨rfl, by simp, fun _ => by simp; omega⟩
  · intro h; exact ⟨rfl, by simp, fun h => by simp at h⟩
  · obtain ⟨rfl, h1, h2⟩ := h
    exact Wp.ite (fun he => Wp.pure ⟨rfl, h1, fun hn => absurd hn (not_none_of_isSome he)⟩)
      fun he => Wp.pure ⟨rfl, h1, fun _ => h2 (by simpa using he)⟩

/-- `ReadBool` may consume nothing (the value came with the field header). -/
theorem wp_bool (s : Cmp) (inp : Bytes) :
    Wp readBool s inp (fun _ s' i => s'.lastField = s.lastField ∧ i.length ≤ inp.length) X := by
  unfold readBool
  refine Wp.bind (Q := fun _ s' i => s' = s ∧ i = inp) (Wp.get ⟨rfl, rfl⟩) fun t s' i h => ?_
  obtain ⟨rfl, rfl⟩ := h
  refine Wp.ite (fun _ => ?_) fun _ => ?_
  · refine Wp.bind (Q := fun _ t j => t.lastField = s'.lastField ∧ j = i) (Wp.modify ⟨rfl, rfl⟩) fun _ t j h => ?_
    obtain ⟨h, rfl⟩ := h
    exact Wp.pure ⟨h, Nat.le_refl _⟩
  · exact Wp.bind (wp_byte s' i) fun _ _ _ h => Wp.pure ⟨h.1, h.2.1⟩

/-- Byte arrays and strings return or panic. -/
theorem wp_binary (f : Nat) (s : Cmp) (inp : Bytes) (h : inp.length < f) (hX : ∀ i, X i) :
    Wp (readBinary f) s inp (Eats s inp) X := by
  unfold readBinary
  refine Wp.bind (wp_varint32 f s inp h) fun r s' i hr => ?_
  obtain ⟨h0, h1, h2⟩ := hr
  refine Wp.ite (fun he => Wp.pure ⟨h0, h1, fun hn => absurd hn (not_none_of_isSome he)⟩) fun he => ?_
  have h2 := h2 (by simpa using he)
  refine Wp.ite (fun _ => Wp.pure ⟨h0, h1, fun _ => h2⟩) fun _ => ?_
  refine Wp.ite (fun _ => Wp.panic (hX _)) fun _ => ?_
  refine Wp.bind (Q := fun _ t j => t = s' ∧ j.length ≤ i.length) (Wp.readAll ?_ ?_) fun _ t j hj => ?_
  · intro; exact ⟨rfl, by simp⟩
  · intro; exact ⟨rfl, by simp⟩
  · obtain ⟨rfl, hj⟩ := hj
    exact Wp.pure ⟨h0, by omega, fun _ => by omega⟩

theorem wp_string (f : Nat) (s : Cmp) (inp : Bytes) (h : inp.length < f) (hX : ∀ i, X i) :
    Wp (readString f) s inp (Eats s inp) X :=
  Wp.bind (wp_binary f s inp h hX) fun r _ _ h => Wp.pure ⟨h.1, h.2.1, fun hn => h.2.2 (by
    rcases r with ⟨v, _ | e⟩
    · rfl
    · exact absurd hn (not_none_of_isSome (e := some e) rfl))⟩

theorem wp_listBegin (f : Nat) (s : Cmp) (inp : Bytes) (h : inp.length < f) :
    Wp (readListBegin f) s inp (Eats s inp) X := by
  unfold readListBegin
  refine Wp.bind (wp_byte s inp) fun r s' i hr => ?_
  obtain ⟨h0, h1, h2⟩ := hr
  refine Wp.ite (fun he => Wp.pure ⟨h0, h1, fun hn => by rw [show r.2 = none from hn] at he; simp at he⟩) fun he => ?_
  have h2 := h2 (by simpa using he)
  have tail : ∀ (t : Cmp) (j : Bytes) (e : Int × GoErr), t.lastField = s.lastField → j.length < inp.length →
      Wp (if e.2.isSome then pure ((TT.STOP, e.1), protocolFromOsError e.2) else do
        let q := getTType r.1
        if q.2.isSome then return ((q.1, e.1), protocolFromOsError q.2)
        return ((q.1, e.1), none) : P Cmp ((TType × Int) × GoErr)) t j (Eats s inp) X := by
    intro t j e ht hj
    exact Wp.ite (fun _ => Wp.pure ⟨ht, Nat.le_of_lt hj, fun _ => hj⟩) fun _ =>
      Wp.ite (fun _ => Wp.pure ⟨ht, Nat.le_of_lt hj, fun _ => hj⟩) fun _ => Wp.pure ⟨ht, Nat.le_of_lt hj, fun _ => hj⟩
  refine Wp.ite (fun _ => ?_) fun _ => ?_
  · refine Wp.bind (Q := fun _ t j => t.lastField = s.lastField ∧ j.length < inp.length) ?_
      fun a t j hj => tail t j a hj.1 hj.2
    exact Wp.bind (wp_varint32 f s' i (by omega)) fun a t j hj => Wp.pure ⟨hj.1.trans h0, by have := hj.2.1; omega⟩
  · exact Wp.bind (Q := fun _ t j => t.lastField = s.lastField ∧ j.length < inp.length) (Wp.pure ⟨h0, h2⟩)
      fun a t j hj => tail t j a hj.1 hj.2

theorem wp_mapBegin (f : Nat) (s : Cmp) (inp : Bytes) (h : inp.length < f) :
    Wp (readMapBegin f) s inp (Eats s inp) X := by
  unfold readMapBegin
  refine Wp.bind (wp_varint32 f s inp h) fun r s' i hr => ?_
  obtain ⟨h0, h1, h2⟩ := hr
  refine Wp.ite (fun he => Wp.pure ⟨h0, h1, fun hn => absurd hn (not_none_of_isSome he)⟩) fun he => ?_
  have h2 := h2 (by simpa using he)
  have tail : ∀ (t : Cmp) (j : Bytes) (e : Byte × GoErr), t.lastField = s.lastField → j.length < inp.length →
      Wp (if e.2.isSome then pure ((TT.STOP, TT.STOP, r.1.toInt), e.2) else
        pure (((getTType (e.1 >>> 4)).1, (getTType (e.1 &&& 0xf)).1, r.1.toInt), none) :
          P Cmp ((TType × TType × Int) × GoErr)) t j (Eats s inp) X := by
    intro t j e ht hj
    exact Wp.ite (fun _ => Wp.pure ⟨ht, Nat.le_of_lt hj, fun _ => hj⟩) fun _ => Wp.pure ⟨ht, Nat.le_of_lt hj, fun _ => hj⟩
  refine Wp.ite (fun _ => ?_) fun _ => ?_
  · exact Wp.bind (wp_byte s' i) fun a t j hj => tail t j a (hj.1.trans h0) (by have := hj.2.1; omega)
  · exact Wp.bind (Q := fun _ t j => t.lastField = s.lastField ∧ j.length < inp.length) (Wp.pure ⟨h0, h2⟩)
      fun a t j hj => tail t j a hj.1 hj.2

/-- A field header that is not STOP has consumed something. -/
theorem wp_fieldBegin (f : Nat) (s : Cmp) (inp : Bytes) (h : inp.length < f) :
    Wp (readFieldBegin f) s inp (fun r s' i => s'.lastField = s.lastField ∧ i.length ≤ inp.length ∧
      (r.1.2.1 ≠ TT.STOP → i.length < inp.length)) X := by
  unfold readFieldBegin
  refine Wp.bind (wp_byte s inp) fun r s' i hr => ?_
  obtain ⟨h0, h1, h2⟩ := hr
  refine Wp.ite (fun he => Wp.pure ⟨h0, h1, fun hn => absurd rfl hn⟩) fun he => ?_
  have h2 := h2 (by simpa using he)
  refine Wp.ite (fun _ => Wp.pure ⟨h0, h1, fun hn => absurd rfl hn⟩) fun _ => ?_
  refine Wp.bind (Q := fun _ t j => t = s' ∧ j = i) (Wp.get ⟨rfl, rfl⟩) fun u t j hj => ?_
  obtain ⟨rfl, rfl⟩ := hj
  have tail : ∀ (t : Cmp) (l : Bytes) (e : I16 × GoErr), t.lastField = s.lastField → l.length < inp.length →
      Wp (if e.2.isSome then pure (([], TT.STOP, e.1), e.2) else do
        let q := getTType (r.1 &&& 0x0f)
        if q.2.isSome then return (([], q.1, e.1), protocolFromOsError q.2)
        if isBoolType r.1 then
          P.modify fun s => { s with boolValue := r.1 &&& 0x0f = CT.BOOLEAN_TRUE, boolValueIsNotNull := true }
        P.modify fun s => { s with lastFieldId := e.1.toInt }
        return (([], q.1, e.1), none) : P Cmp ((Bytes × TType × I16) × GoErr)) t l
        (fun r s' i => s'.lastField = s.lastField ∧ i.length ≤ inp.length ∧
          (r.1.2.1 ≠ TT.STOP → i.length < inp.length)) X := by
    intro t l e ht hl
    have hl' : l.length ≤ inp.length := Nat.le_of_lt hl
    refine Wp.ite (fun _ => Wp.pure ⟨ht, hl', fun _ => hl⟩) fun _ => ?_
    refine Wp.ite (fun _ => Wp.pure ⟨ht, hl', fun _ => hl⟩) fun _ => ?_
    have last : ∀ t : Cmp, t.lastField = s.lastField → Wp (do
        P.modify fun s => { s with lastFieldId := e.1.toInt }
        return (([], (getTType (r.1 &&& 0x0f)).1, e.1), none) : P Cmp ((Bytes × TType × I16) × GoErr)) t l
        (fun r s' i => s'.lastField = s.lastField ∧ i.length ≤ inp.length ∧
          (r.1.2.1 ≠ TT.STOP → i.length < inp.length)) X := by
      intro t ht
      refine Wp.bind (Q := fun _ t' l' => t'.lastField = s.lastField ∧ l' = l) (Wp.modify ⟨ht, rfl⟩) fun _ t' l' h' => ?_
      obtain ⟨h', rfl⟩ := h'
      exact Wp.pure ⟨h', hl', fun _ => hl⟩
    refine Wp.ite (fun _ => ?_) fun _ => last t ht
    refine Wp.bind (Q := fun _ t' l' => t'.lastField = s.lastField ∧ l' = l) (Wp.modify ⟨ht, rfl⟩) fun _ t' l' h' => ?_
    obtain ⟨h', rfl⟩ := h'
    exact last t' h'
  refine Wp.ite (fun _ => ?_) fun _ => ?_
  · exact Wp.bind (wp_i16 f t j (by omega)) fun a t' l hl => tail t' l a (hl.1.trans h0) (by have := hl.2.1; omega)
  · exact Wp.bind (Q := fun _ t l => t.lastField = s.lastField ∧ l.length < inp.length) (Wp.pure ⟨h0, h2⟩)
      fun a t l hl => tail t l a hl.1 hl.2

theorem wp_messageBegin (f : Nat) (s : Cmp) (inp : Bytes) (h : inp.length < f) (hX : ∀ i, X i) :
    Wp (readMessageBegin f) s inp (fun _ s' i => s'.lastField = s.lastField ∧ i.length ≤ inp.length) X := by
  unfold readMessageBegin
  refine Wp.bind (wp_byte s inp) fun r s1 i hr => ?_
  have a1 := hr.1; have a2 := hr.2.1
  refine Wp.ite (fun _ => Wp.pure ⟨a1, a2⟩) fun _ => ?_
  refine Wp.bind (wp_byte s1 i) fun r s2 j hr => ?_
  have b1 := hr.1; have b2 := hr.2.1
  refine Wp.ite (fun _ => Wp.pure ⟨b1.trans a1, by omega⟩) fun _ => ?_
  refine Wp.ite (fun _ => Wp.pure ⟨b1.trans a1, by omega⟩) fun _ => ?_
  refine Wp.bind (wp_varint32 f s2 j (by omega)) fun r s3 k hr => ?_
  have c1 := hr.1; have c2 := hr.2.1
  refine Wp.ite (fun _ => Wp.pure ⟨c1.trans (b1.trans a1), by omega⟩) fun _ => ?_
  exact Wp.bind (wp_string f s3 k (by omega) hX) fun r s4 l hr =>
    Wp.pure ⟨hr.1.trans (c1.trans (b1.trans a1)), by have := hr.2.1; omega⟩

/-- `Skip` never empties the stack. -/
def Keeps (s : Cmp) (inp : Bytes) : Cmp → Bytes → Prop :=
  fun s' i => s.lastField.length ≤ s'.lastField.length ∧ i.length ≤ inp.length

theorem wp_skipFields (fu : Nat) (g : TType → P Cmp GoErr) (L : Nat) (hL : L < fu)
    (hg : ∀ t s (i : Bytes), i.length < L → Wp (g t) s i (fun _ => Keeps s i) X) :
    ∀ (n : Nat) (s : Cmp) (inp : Bytes), inp.length ≤ L → inp.length < n →
      Wp (skipFields (compact fu) g n) s inp (fun _ => Keeps s inp) X
  | 0, _, _, _, h => by omega
  | n + 1, s, inp, hi, hn => by
    unfold skipFields
    refine Wp.bind (wp_fieldBegin fu s inp (by omega)) fun r s' i h => ?_
    refine Wp.ite (fun _ => Wp.pure ⟨by rw [h.1]; exact Nat.le_refl _, h.2.1⟩) (fun ht => ?_)
    have hlt := h.2.2 ht
    refine Wp.bind (hg _ s' i (by omega)) fun _ s2 j hj => ?_
    refine Wp.bind (Q := fun _ s3 j' => s3 = s2 ∧ j' = j) (Wp.pure ⟨rfl, rfl⟩) fun _ s3 j' hj' => ?_
    obtain ⟨rfl, rfl⟩ := hj'
    have hj1 := hj.1; have hj2 := hj.2
    rw [h.1] at hj1
    exact Wp.mono (wp_skipFields fu g L hL hg n s3 j' (by omega) (by omega)) fun _ _ l hl =>
      ⟨Nat.le_trans hj1 hl.1, by have := hl.2; omega⟩

/-- `Skip` returns or panics once the fuel exceeds the length of the input. -/
theorem wp_skip (fu : Nat) (msd : Int) (hX : ∀ i, X i) : ∀ (fuel : Nat) (t : TType) (d : Int) (s : Cmp) (inp : Bytes),
    inp.length + 1 < fuel → inp.length + 1 < fu →
    Wp (skip (compact fu) msd fuel t d) s inp (fun _ => Keeps s inp) X
  | 0, _, _, _, _, h, _ => by omega
  | fuel + 1, t, d, s, inp, hf, hfu => by
    have hrec : ∀ t d s (i : Bytes), i.length < inp.length →
        Wp (skip (compact fu) msd fuel t d) s i (fun _ => Keeps s i) X :=
      fun t d s i hi => wp_skip fu msd hX fuel t d s i (by omega) (by omega)
    have M {α : Type} {m : P Cmp (α × GoErr)} (h : Wp m s inp (Eats s inp) X) :
        Wp (do return (← m).2) s inp (fun _ => Keeps s inp) X :=
      Wp.bind h fun _ _ _ h => Wp.pure ⟨by rw [h.1]; exact Nat.le_refl _, h.2.1⟩
    unfold skip
    refine Wp.ite (fun _ => Wp.pure ⟨Nat.le_refl _, Nat.le_refl _⟩) fun _ => ?_
    refine Wp.ite (fun _ => Wp.bind (wp_bool s inp) fun _ _ _ h => Wp.pure ⟨by rw [h.1]; exact Nat.le_refl _, h.2⟩) fun _ => ?_
    refine Wp.ite (fun _ => M (wp_byte s inp)) fun _ => ?_
    refine Wp.ite (fun _ => M (wp_i16 fu s inp (by omega))) fun _ => ?_
    refine Wp.ite (fun _ => M (wp_i32 fu s inp (by omega))) fun _ => ?_
    refine Wp.ite (fun _ => M (wp_i64 fu s inp (by omega))) fun _ => ?_
    refine Wp.ite (fun _ => M (wp_double s inp)) fun _ => ?_
    refine Wp.ite (fun _ => M (wp_string fu s inp (by omega) hX)) fun _ => ?_
    refine Wp.ite (fun _ => ?_) fun _ => Wp.ite (fun _ => ?_) fun _ => Wp.ite (fun _ => ?_) fun _ =>
      Wp.ite (fun _ => ?_) fun _ => Wp.pure ⟨Nat.le_refl _, Nat.le_refl _⟩
    · refine Wp.bind (Q := fun r s' i => r.2 = none ∧ s'.lastField = s.lastFieldId :: s.lastField ∧ i = inp)
        (Wp.bind (Q := fun _ s' i => s'.lastField = s.lastFieldId :: s.lastField ∧ i = inp)
          (Wp.modify ⟨rfl, rfl⟩) fun _ _ _ h => Wp.pure ⟨rfl, h⟩) fun r s' i h => ?_
      obtain ⟨hr, hs', rfl⟩ := h
      refine Wp.ite (fun hc => by simp [hr] at hc) fun _ => ?_
      refine Wp.bind (wp_skipFields fu _ i.length (by omega) (fun t s j hj => hrec t (d - 1) s j hj) fuel s' i
        (Nat.le_refl _) (by omega)) fun _ s'' j hj => ?_
      have h1 := hj.1
      rw [hs', List.length_cons] at h1
      show Wp readStructEnd s'' j _ X
      unfold readStructEnd
      refine Wp.bind (Q := fun u t l => u = s'' ∧ t = s'' ∧ l = j) (Wp.get ⟨rfl, rfl, rfl⟩) fun u t l hu => ?_
      obtain ⟨rfl, rfl, rfl⟩ := hu
      cases hl : t.lastField with
      | nil => simp [hl] at h1
      | cons top rest =>
        dsimp only
        refine Wp.bind (Q := fun _ t' l' => t'.lastField = t.lastField ∧ l' = l) (Wp.modify ⟨rfl, rfl⟩)
          fun _ t' l' h' => ?_
        obtain ⟨h', rfl⟩ := h'
        exact Wp.pure ⟨by rw [h']; omega, hj.2⟩
    all_goals
      first
        | refine Wp.bind (wp_mapBegin fu s inp (by omega)) fun r s' i h => ?_
        | refine Wp.bind (wp_listBegin fu s inp (by omega)) fun r s' i h => ?_
      obtain ⟨h0, h1, h2⟩ := h
      have h0' : s.lastField.length ≤ s'.lastField.length := by rw [h0]; exact Nat.le_refl _
      refine Wp.ite (fun _ => Wp.pure ⟨h0', h1⟩) fun he => ?_
      have h2 := h2 (by simpa using he)
      refine Wp.bind (Wp.repeatN (I := fun t j => s.lastField.length ≤ t.lastField.length ∧ j.length < inp.length)
        ?_ _ s' i ⟨h0', h2⟩) fun _ _ _ h => Wp.pure ⟨h.1, Nat.le_of_lt h.2⟩
      intro t j hj
      obtain ⟨hj1, hj2⟩ := hj
    · refine Wp.bind (hrec _ _ t j hj2) fun _ t' l hl => ?_
      have := hl.1; have := hl.2
      exact Wp.bind (hrec _ _ t' l (by omega)) fun _ t'' l' hl' => Wp.pure
        ⟨by have := hl'.1; omega, by have := hl'.2; omega⟩
    · exact Wp.bind (hrec _ _ t j hj2) fun _ t' l hl => Wp.pure ⟨by have := hl.1; omega, by have := hl.2; omega⟩
    · exact Wp.bind (hrec _ _ t j hj2) fun _ t' l hl => Wp.pure ⟨by have := hl.1; omega, by have := hl.2; omega⟩

end Cmp
end Thrift
