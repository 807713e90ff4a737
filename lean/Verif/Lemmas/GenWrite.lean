import Verif.Lemmas.BinaryValue
import Verif.Lemmas.CompactValue
import Verif.Spec.Gen
/-!
# Generated writers

The value tree that a generated writer sends.
-/

namespace Thrift

/-! ## Writers that do the same when nothing fails -/

/-- Whenever `m` succeeds, so does `n`, with the same effect. -/
def Sim (T : Transport σ) (m n : P π GoErr) : Prop :=
  ∀ s t s' t', m.run T s t = (.ok (none, s'), t') → n.run T s t = (.ok (none, s'), t')

variable {T : Transport σ}

theorem Sim.refl (m : P π GoErr) : Sim T m m := fun _ _ _ _ h => h

theorem Sim.trans {a b c : P π GoErr} (h1 : Sim T a b) (h2 : Sim T b c) : Sim T a c :=
  fun s t s' t' h => h2 s t s' t' (h1 s t s' t' h)

theorem seq_inv {m k : P π GoErr} {s s' : π} {t t' : σ}
    (h : (m >>= fun e => if e.isSome then pure e else k).run T s t = (.ok (none, s'), t')) :
    ∃ s₁ t₁, m.run T s t = (.ok (none, s₁), t₁) ∧ k.run T s₁ t₁ = (.ok (none, s'), t') := by
  simp only [P.run_bind] at h
  generalize hm : m.run T s t = r at h
  obtain ⟨r, t₁⟩ := r
  cases r with
  | ok x =>
    obtain ⟨e, s₁⟩ := x
    cases e with
    | none => exact ⟨s₁, t₁, rfl, by simpa using h⟩
    | some e => simp at h
  | panic => simp at h
  | stuck => simp at h

theorem seq_run {m k : P π GoErr} {s s₁ s' : π} {t t₁ t' : σ} (h1 : m.run T s t = (.ok (none, s₁), t₁))
    (h2 : k.run T s₁ t₁ = (.ok (none, s'), t')) :
    (m >>= fun e => if e.isSome then pure e else k).run T s t = (.ok (none, s'), t') := by
  simp [h1, h2]

theorem Sim.seq {m n k l : P π GoErr} (h1 : Sim T m n) (h2 : Sim T k l) :
    Sim T (m >>= fun e => if e.isSome then pure e else k) (n >>= fun e => if e.isSome then pure e else l) := by
  intro s t s' t' h
  obtain ⟨s₁, t₁, ha, hb⟩ := seq_inv h
  exact seq_run (h1 _ _ _ _ ha) (h2 _ _ _ _ hb)

theorem Sim.assoc {a b c : P π GoErr} :
    Sim T (a >>= fun e => if e.isSome then pure e else (b >>= fun e => if e.isSome then pure e else c))
      ((a >>= fun e => if e.isSome then pure e else b) >>= fun e => if e.isSome then pure e else c) := by
  intro s t s' t' h
  obtain ⟨s₁, t₁, h1, h⟩ := seq_inv h
  obtain ⟨s₂, t₂, h2, h3⟩ := seq_inv h
  exact seq_run (seq_run h1 h2) h3

theorem Sim.assoc' {a b c : P π GoErr} :
    Sim T ((a >>= fun e => if e.isSome then pure e else b) >>= fun e => if e.isSome then pure e else c)
      (a >>= fun e => if e.isSome then pure e else (b >>= fun e => if e.isSome then pure e else c)) := by
  intro s t s' t' h
  obtain ⟨s₂, t₂, h, h3⟩ := seq_inv h
  obtain ⟨s₁, t₁, h1, h2⟩ := seq_inv h
  exact seq_run h1 (seq_run h2 h3)

theorem Sim.wrap {m n : P π GoErr} (w : Err → Err) (h : Sim T m n) : Sim T m (wrapErr w n) := by
  intro s t s' t' hm
  simp [wrapErr, h s t s' t' hm]

/-! ## The tree -/

/-- Whether a container header may name the type. -/
def Ty.header (bin : Bool) (t : Ty) : Bool := bin || t.code ≠ TT.BINARY

/-- The fields that `Write` sends. -/
def flatMembers (S : Schema) (fl : Ty → Dyn → Option Val) (attrs : List (Int × Dyn)) : List Member → Option Fields
  | [] => some .nil
  | m :: ms =>
    let d := attributeOf attrs m.id.toInt
    if m.written S d then
      match fl m.ty d, flatMembers S fl attrs ms with
      | some v, some r => some (.cons m.id v r)
      | _, _ => none
    else flatMembers S fl attrs ms

def flatVals (fl : Dyn → Option Val) : List Dyn → Option Vals
  | [] => some .nil
  | d :: ds => match fl d, flatVals fl ds with
    | some v, some r => some (.cons v r)
    | _, _ => none

def flatPairs (fk fv : Dyn → Option Val) : List (Dyn × Dyn) → Option Pairs
  | [] => some .nil
  | (k, v) :: ds => match fk k, fv v, flatPairs fk fv ds with
    | some k, some v, some r => some (.cons k v r)
    | _, _, _ => none

/-- The tree that a generated writer sends; `none` if it panics or announces more
elements than it sends.  `bin` tells whether the protocol can name the type
BINARY. -/
def flatVal (bin : Bool) (S : Schema) : (fuel : Nat) → Ty → Dyn → Option Val
  | 0, _, _ => none
  | fuel + 1, ty, d =>
    match ty, d with
    | .bool, .bool b => some (.bool b)
    | .byte, .byte b => some (.byte b)
    | .i16, .int16 v => some (.i16 v)
    | .i32, .int32 v => some (.i32 v)
    | .i64, .int64 v => some (.i64 v)
    | .double, .float64 v => some (.double v)
    | .string, .string s => some (.str s)
    | .binary, .bytes s => if bin then some (.str s) else none
    | .enum k, .enumer k' v _ => if k = k' then some (.i32 (v.setWidth 32)) else none
    | .struct k, .struct _ true nm _ _ attrs =>
      if nm = (S.structs k).name then
        (flatMembers S (flatVal bin S fuel) attrs (S.structs k).sorted).map .struct
      else none
    | .list e, .list _ _ vs =>
      if e.header bin then (flatVals (flatVal bin S fuel e) vs).map (.list e.wire) else none
    | .set e, .set _ _ len vs =>
      if e.header bin ∧ len = vs.length then (flatVals (flatVal bin S fuel e) vs).map (.set e.wire) else none
    | .map k v, .map _ kt _ len _ _ entries =>
      if k.header bin ∧ v.header bin ∧ len = entries.length then
        match iterated kt entries with
        | some es =>
          if es.length = entries.length then
            (flatPairs (flatVal bin S fuel k) (flatVal bin S fuel v) es).map (.map k.wire v.wire)
          else none
        | none => none
      else none
    | _, _ => none

/-- A protocol that ignores names and, if `bin`, takes BINARY for STRING. -/
structure Blind (T : Transport σ) (p : Proto π) (bin : Bool) : Prop where
  struct : ∀ n, Sim T (p.writeStructBegin []) (p.writeStructBegin n)
  boolField : ∀ n id b, Sim T
    (p.writeFieldBegin [] TT.BOOL id >>= fun e => if e.isSome then pure e else p.writeBool b)
    (p.writeFieldBegin n TT.BOOL id >>= fun e => if e.isSome then pure e else p.writeBool b)
  field : ∀ n (t : Ty) id, t ≠ .bool → t.header bin → Sim T (p.writeFieldBegin [] t.wire id) (p.writeFieldBegin n t.code id)
  list : ∀ (t : Ty) n, t.header bin → Sim T (p.writeListBegin t.wire n) (p.writeListBegin t.code n)
  set : ∀ (t : Ty) n, t.header bin → Sim T (p.writeSetBegin t.wire n) (p.writeSetBegin t.code n)
  map : ∀ (k v : Ty) n, k.header bin → v.header bin →
    Sim T (p.writeMapBegin k.wire v.wire n) (p.writeMapBegin k.code v.code n)
  binary : bin → ∀ b, Sim T (p.writeString b) (p.writeBinary b)

theorem Ty.wire_of_header {t : Ty} (h : t.code ≠ TT.BINARY) : t.wire = t.code := if_neg h

theorem thriftTypeId_code (t : Ty) : thriftTypeId t.code = thriftTypeId t.wire := by
  cases t <;> rfl

theorem blind_binary : Blind duplex binary true where
  struct n := Sim.refl _
  boolField n id b := Sim.refl _
  field n t id _ _ := by
    show Sim duplex (BinaryProtocol.writeFieldBegin [] _ _) (BinaryProtocol.writeFieldBegin n _ _)
    simp only [BinaryProtocol.writeFieldBegin, thriftTypeId_code t]; exact Sim.refl _
  list t n _ := by
    show Sim duplex (BinaryProtocol.writeListBegin _ _) (BinaryProtocol.writeListBegin _ _)
    simp only [BinaryProtocol.writeListBegin, thriftTypeId_code t]; exact Sim.refl _
  set t n _ := by
    show Sim duplex (BinaryProtocol.writeListBegin _ _) (BinaryProtocol.writeListBegin _ _)
    simp only [BinaryProtocol.writeListBegin, thriftTypeId_code t]; exact Sim.refl _
  map k v n _ _ := by
    show Sim duplex (BinaryProtocol.writeMapBegin _ _ _) (BinaryProtocol.writeMapBegin _ _ _)
    simp only [BinaryProtocol.writeMapBegin, thriftTypeId_code k, thriftTypeId_code v]; exact Sim.refl _
  binary _ b := by
    refine Sim.seq (Sim.refl _) ?_
    intro s t s' t' h
    obtain ⟨inp, out⟩ := t
    by_cases hb : b = []
    · subst hb
      simp [BinaryProtocol.copyN, BinaryProtocol.rawWrite, protocolFromOsError] at h ⊢
      exact h
    · simp [BinaryProtocol.copyN, BinaryProtocol.rawWrite, hb, protocolFromOsError] at h ⊢
      exact h

theorem blind_compact (f : Nat) : Blind duplex (compact f) false where
  struct n := Sim.refl _
  boolField n id b := by
    have e (n : Bytes) (s : Cmp) (t : Bytes × Bytes) := seq_run (T := duplex)
      (Cmp.emits_boolFieldBegin n id s t.1 t.2) (Cmp.emits_boolField' n id b s t.1 (t.2 ++ []))
    intro s t s' t' h
    exact (e n s t).trans ((e [] s t).symm.trans h)
  field n t id hb h := by
    have h : t.code ≠ TT.BINARY := by simpa [Ty.header] using h
    have hb : t.code ≠ TT.BOOL := by cases t <;> first | exact absurd rfl hb | simp [Ty.code]
    rw [Ty.wire_of_header h]
    show Sim duplex (CompactProtocol.writeFieldBegin [] _ _) (CompactProtocol.writeFieldBegin n _ _)
    simp only [CompactProtocol.writeFieldBegin, if_neg hb]
    exact Sim.refl _
  list t n h := by
    have : t.code ≠ TT.BINARY := by simpa [Ty.header] using h
    rw [Ty.wire_of_header this]; exact Sim.refl _
  set t n h := by
    have : t.code ≠ TT.BINARY := by simpa [Ty.header] using h
    rw [Ty.wire_of_header this]; exact Sim.refl _
  map k v n h1 h2 := by
    have h1 : k.code ≠ TT.BINARY := by simpa [Ty.header] using h1
    have h2 : v.code ≠ TT.BINARY := by simpa [Ty.header] using h2
    rw [Ty.wire_of_header h1, Ty.wire_of_header h2]; exact Sim.refl _
  binary h := by cases h

/-! ## The writer sends the tree -/

theorem flatVals_length {fl : Dyn → Option Val} : ∀ {ds : List Dyn} {vs : Vals}, flatVals fl ds = some vs → vs.length = ds.length
  | [], vs, h => by simp only [flatVals, Option.some.injEq] at h; subst h; rfl
  | d :: ds, vs, h => by
    simp only [flatVals] at h
    split at h
    · rename_i v r h1 h2
      simp only [Option.some.injEq] at h; subst h
      simp [Vals.length, flatVals_length h2]
    · cases h

theorem flatPairs_length {fk fv : Dyn → Option Val} : ∀ {ds : List (Dyn × Dyn)} {vs : Pairs}, flatPairs fk fv ds = some vs →
    vs.length = ds.length
  | [], vs, h => by simp only [flatPairs, Option.some.injEq] at h; subst h; rfl
  | (k, v) :: ds, vs, h => by
    simp only [flatPairs] at h
    split at h
    · rename_i _ h3
      simp only [Option.some.injEq] at h; subst h
      simp [Pairs.length, flatPairs_length h3]
    · cases h

theorem flatVal_type {bin : Bool} {S : Schema} {fuel : Nat} {ty : Ty} {d : Dyn} {v : Val} (h : flatVal bin S fuel ty d = some v) :
    v.type = ty.wire := by
  cases fuel with
  | zero => cases h
  | succ fuel =>
    simp only [flatVal] at h
    split at h <;> try (simp only [Option.some.injEq] at h; subst h; rfl)
    · split at h
      · simp only [Option.some.injEq] at h; subst h; rfl
      · cases h
    · split at h
      · simp only [Option.some.injEq] at h; subst h; rfl
      · cases h
    · split at h
      · simp only [Option.map_eq_some_iff] at h; obtain ⟨_, _, rfl⟩ := h; rfl
      · cases h
    · split at h
      · simp only [Option.map_eq_some_iff] at h; obtain ⟨_, _, rfl⟩ := h; rfl
      · cases h
    · split at h
      · simp only [Option.map_eq_some_iff] at h; obtain ⟨_, _, rfl⟩ := h; rfl
      · cases h
    · split at h
      · split at h
        · split at h
          · simp only [Option.map_eq_some_iff] at h; obtain ⟨_, _, rfl⟩ := h; rfl
          · cases h
        · cases h
      · cases h
    · cases h

variable {p : Proto π} {bin : Bool} {S : Schema}

theorem sim_elems {fl : Dyn → Option Val} {wr : Dyn → P π GoErr} (h : ∀ d v, fl d = some v → Sim T (writeVal p v) (wr d)) :
    ∀ {ds : List Dyn} {vs : Vals}, flatVals fl ds = some vs → Sim T (writeVals p vs) (genWriteElems wr ds)
  | [], vs, hf => by simp only [flatVals, Option.some.injEq] at hf; subst hf; exact Sim.refl _
  | d :: ds, vs, hf => by
    simp only [flatVals] at hf
    split at hf
    · rename_i v r h1 h2
      simp only [Option.some.injEq] at hf; subst hf
      exact Sim.seq (h d v h1) (sim_elems h h2)
    · cases hf

theorem sim_entries {fk fv : Dyn → Option Val} {wk wv : Dyn → P π GoErr} (hk : ∀ d v, fk d = some v → Sim T (writeVal p v) (wk d))
    (hv : ∀ d v, fv d = some v → Sim T (writeVal p v) (wv d)) :
    ∀ {ds : List (Dyn × Dyn)} {vs : Pairs}, flatPairs fk fv ds = some vs → Sim T (writePairs p vs) (genWriteEntries wk wv ds)
  | [], vs, hf => by simp only [flatPairs, Option.some.injEq] at hf; subst hf; exact Sim.refl _
  | (k, v) :: ds, vs, hf => by
    simp only [flatPairs] at hf
    split at hf
    · rename_i k' v' r h1 h2 h3
      simp only [Option.some.injEq] at hf; subst hf
      exact Sim.seq (hk k k' h1) (Sim.seq (hv v v' h2) (sim_entries hk hv h3))
    · cases hf

theorem sim_members (hB : Blind T p bin) {fl : Ty → Dyn → Option Val} {wr : Bytes → Bytes → Ty → Dyn → P π GoErr}
    (ht : ∀ t d v, fl t d = some v → v.type = t.wire ∧ t.header bin)
    (hb : ∀ fn sn d v, fl .bool d = some v → ∃ b w, v = .bool b ∧ wr fn sn .bool d = wrapErr w (p.writeBool b))
    (h : ∀ fn sn t d v, fl t d = some v → Sim T (writeVal p v) (wr fn sn t d)) (sd : StructDef) (attrs : List (Int × Dyn)) :
    ∀ {ms : List Member} {fs : Fields}, flatMembers S fl attrs ms = some fs →
      Sim T (writeFields p fs) (genWriteMembers p S wr sd attrs ms)
  | [], fs, hf => by simp only [flatMembers, Option.some.injEq] at hf; subst hf; exact Sim.refl _
  | m :: ms, fs, hf => by
    simp only [flatMembers] at hf
    simp only [genWriteMembers, genWriteMember]
    by_cases hw : m.written S (attributeOf attrs m.id.toInt)
    · simp only [hw, if_true] at hf ⊢
      split at hf
      · rename_i v r h1 h2
        simp only [Option.some.injEq] at hf; subst hf
        obtain ⟨hty, hhd⟩ := ht _ _ _ h1
        simp only [writeFields, hty]
        have hhead : Sim T
            (p.writeFieldBegin [] m.ty.wire m.id >>= fun e => if e.isSome then pure e else writeVal p v)
            (wrapErr (excWriteField m.name sd.name) (p.writeFieldBegin m.name m.ty.code m.id) >>= fun e =>
              if e.isSome then pure e else wr m.name sd.name m.ty (attributeOf attrs m.id.toInt)) := by
          by_cases hbool : m.ty = .bool
          · rw [hbool] at h1 ⊢
            obtain ⟨b, w, rfl, hwr⟩ := hb m.name sd.name _ _ h1
            rw [hwr]
            exact Sim.trans (hB.boolField m.name m.id b) (Sim.seq ((Sim.refl _).wrap _) ((Sim.refl _).wrap _))
          · exact Sim.seq ((hB.field m.name m.ty m.id hbool hhd).wrap _) (h m.name sd.name m.ty _ v h1)
        have hend : Sim T (p.writeFieldEnd >>= fun e => if e.isSome then pure e else writeFields p r)
            (wrapErr (excWriteField m.name sd.name) p.writeFieldEnd >>= fun e => if e.isSome then pure e else
              genWriteMembers p S wr sd attrs ms) :=
          Sim.seq ((Sim.refl _).wrap _) (sim_members hB ht hb h sd attrs h2)
        refine Sim.trans Sim.assoc (Sim.trans (Sim.seq hhead hend) ?_)
        refine Sim.trans Sim.assoc' ?_
        refine Sim.trans (Sim.seq (Sim.refl _) Sim.assoc) Sim.assoc
      · cases hf
    · simp only [hw] at hf ⊢
      intro s t s' t' hr
      exact seq_run (m := pure none) rfl (sim_members hB ht hb h sd attrs hf s t s' t' hr)

theorem flatVal_header {bin : Bool} {S : Schema} {fuel : Nat} {ty : Ty} {d : Dyn} {v : Val} (h : flatVal bin S fuel ty d = some v) :
    ty.header bin := by
  cases fuel with
  | zero => cases h
  | succ fuel =>
    cases ty with
    | binary =>
      cases bin with
      | true => rfl
      | false => cases d <;> simp [flatVal] at h
    | _ => cases bin <;> rfl

theorem flatVal_bool (fuel : Nat) (fn sn : Bytes) (d : Dyn) (v : Val) (h : flatVal bin S fuel .bool d = some v) :
    ∃ b w, v = .bool b ∧ genWriteVal p S fuel fn sn .bool d = wrapErr w (p.writeBool b) := by
  cases fuel with
  | zero => cases h
  | succ fuel =>
    cases d <;> simp [flatVal] at h
    subst h
    exact ⟨_, _, rfl, rfl⟩

theorem sim_val (hB : Blind T p bin) : ∀ (fuel : Nat) (fn sn : Bytes) (ty : Ty) (d : Dyn) (v : Val),
    flatVal bin S fuel ty d = some v → Sim T (writeVal p v) (genWriteVal p S fuel fn sn ty d) := by
  intro fuel
  induction fuel with
  | zero => intro fn sn ty d v h; cases h
  | succ fuel ih =>
    intro fn sn ty d v h
    simp only [flatVal] at h
    split at h <;> try (simp only [Option.some.injEq] at h; subst h; exact (Sim.refl _).wrap _)
    · split at h
      · rename_i hb
        simp only [Option.some.injEq] at h; subst h
        exact (hB.binary hb _).wrap _
      · cases h
    · split at h
      · rename_i hk
        simp only [Option.some.injEq] at h; subst h hk
        simp only [genWriteVal, if_true]
        exact (Sim.refl _).wrap _
      · cases h
    · split at h
      · rename_i hn
        simp only [Option.map_eq_some_iff] at h
        obtain ⟨fs, hfs, rfl⟩ := h
        simp only [genWriteVal, hn, if_true, genWriteBody, writeVal]
        refine Sim.wrap _ (Sim.seq ((hB.struct _).wrap _) (Sim.seq ?_ (Sim.seq ((Sim.refl _).wrap _) ((Sim.refl _).wrap _))))
        exact sim_members hB (fun t d v h => ⟨flatVal_type h, flatVal_header h⟩) (flatVal_bool fuel) ih _ _ hfs
      · cases h
    · split at h
      · rename_i hh
        simp only [Option.map_eq_some_iff] at h
        obtain ⟨vs, hvs, rfl⟩ := h
        simp only [genWriteVal, writeVal, flatVals_length hvs]
        exact Sim.seq ((hB.list _ _ hh).wrap _) (Sim.seq (sim_elems (fun d v => ih [] [] _ d v) hvs) ((Sim.refl _).wrap _))
      · cases h
    · split at h
      · rename_i hh
        simp only [Option.map_eq_some_iff] at h
        obtain ⟨vs, hvs, rfl⟩ := h
        simp only [genWriteVal, writeVal, flatVals_length hvs, hh.2]
        exact Sim.seq ((hB.set _ _ hh.1).wrap _) (Sim.seq (sim_elems (fun d v => ih [] [] _ d v) hvs) ((Sim.refl _).wrap _))
      · cases h
    · split at h
      · rename_i hh
        split at h
        · rename_i es hit
          split at h
          · rename_i hlen
            simp only [Option.map_eq_some_iff] at h
            obtain ⟨vs, hvs, rfl⟩ := h
            simp only [genWriteVal, writeVal, flatPairs_length hvs, hh.2.2, hit, hlen]
            exact Sim.seq ((hB.map _ _ _ hh.1 hh.2.1).wrap _) (Sim.seq
              (sim_entries (fun d v => ih [] [] _ d v) (fun d v => ih [] [] _ d v) hvs) ((Sim.refl _).wrap _))
          · cases h
        · cases h
      · cases h
    · cases h

theorem sim_struct (hB : Blind T p bin) (fuel : Nat) (sd : StructDef) (attrs : List (Int × Dyn)) (fs : Fields)
    (h : flatMembers S (flatVal bin S fuel) attrs sd.sorted = some fs) :
    Sim T (writeVal p (.struct fs)) (genWrite p S fuel sd attrs) := by
  simp only [genWrite, genWriteBody, writeVal]
  refine Sim.seq ((hB.struct _).wrap _) (Sim.seq ?_ (Sim.seq ((Sim.refl _).wrap _) ((Sim.refl _).wrap _)))
  exact sim_members hB (fun t d v h => ⟨flatVal_type h, flatVal_header h⟩) (flatVal_bool fuel) (sim_val hB fuel) _ _ h

theorem Emits.sim {m n : P π GoErr} {s s' : π} {bs : Bytes} (h : Emits m s s' bs) (hs : Sim duplex m n) : Emits n s s' bs :=
  fun inp out => hs _ _ _ _ (h inp out)

end Thrift
