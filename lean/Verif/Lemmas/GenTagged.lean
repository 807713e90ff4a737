import Verif.Lemmas.JsonNamedRead
import Verif.Lemmas.GenWire
/-!
# Generated code over the tagged JSON protocol
-/

namespace Thrift

variable {S : Schema}

/-! ## Without `binary` -/

theorem flatVals_congr {f g : Dyn → Option Val} (h : ∀ d, f d = g d) (ds : List Dyn) : flatVals f ds = flatVals g ds := by
  rw [funext h]

theorem flatMembers_free {f g : Ty → Dyn → Option Val} (attrs : List (Int × Dyn)) : ∀ (ms : List Member),
    (∀ m ∈ ms, ∀ d, f m.ty d = g m.ty d) → flatMembers S f attrs ms = flatMembers S g attrs ms
  | [], _ => rfl
  | m :: ms, h => by
    simp only [flatMembers, h m List.mem_cons_self, flatMembers_free attrs ms fun x hx => h x (List.mem_cons_of_mem _ hx)]

/-- Without `binary` it does not matter whether the protocol can name it. -/
theorem flatVal_free (hS : ∀ k, ∀ m ∈ (S.structs k).members, m.ty.BinaryFree) :
    ∀ (fuel : Nat) (ty : Ty) (d : Dyn), ty.BinaryFree → flatVal false S fuel ty d = flatVal true S fuel ty d
  | 0, _, _, _ => rfl
  | fuel + 1, ty, d, h => by
    have ih := flatVal_free hS fuel
    cases ty with
    | binary => exact h.elim
    | struct k =>
      have hm (attrs) := flatMembers_free (S := S) (f := flatVal false S fuel) (g := flatVal true S fuel) attrs (S.structs k).sorted
        fun m hm d => ih m.ty d (hS k m (mem_sorted.mp hm))
      cases d with
      | struct p g => cases g <;> simp only [flatVal, hm]
      | _ => rfl
    | list e =>
      cases d <;> simp only [flatVal, header_of (bin := false) (.inr (show e.BinaryFree from h)), header_of (bin := true) (.inr (show e.BinaryFree from h)),
        flatVals_congr fun d => ih e d h]
    | set e =>
      cases d <;> simp only [flatVal, header_of (bin := false) (.inr (show e.BinaryFree from h)), header_of (bin := true) (.inr (show e.BinaryFree from h)),
        flatVals_congr fun d => ih e d h]
    | map k v =>
      have hk : flatVal false S fuel k = flatVal true S fuel k := funext fun d => ih k d h.1
      have hv : flatVal false S fuel v = flatVal true S fuel v := funext fun d => ih v d h.2
      cases d <;> simp only [flatVal, header_of (bin := false) (.inr h.1), header_of (bin := true) (.inr h.1),
        header_of (bin := false) (.inr h.2), header_of (bin := true) (.inr h.2), hk, hv]
    | _ => cases d <;> rfl

/-! ## Readers of declared types without `binary` -/

variable {π : Type}

theorem genReadMember_congr {rd rd' : Bytes → Bytes → Member → P π (Dyn × GoErr)} {sk sk' : TType → P π GoErr} {sd : StructDef}
    (h : ∀ m ∈ sd.members, ∀ fn sn, rd fn sn m = rd' fn sn m) (hsk : sk = sk') (attrs : List (Int × Dyn)) (name : Bytes) (t : TType)
    (id : I16) : genReadMember rd sk sd attrs name t id = genReadMember rd' sk' sd attrs name t id := by
  subst hsk
  unfold genReadMember
  split
  · rename_i m hm
    rw [h m (List.mem_of_find?_eq_some hm)]
  · rfl

namespace JsonR
open JsonProtocol

variable {τ : Type} {E : JsonEnv τ}

theorem skipDefault_textual (E : JsonEnv τ) (msd : Int) (fuel : Nat) :
    skipDefaultDepth (textual E) msd fuel = skipDefaultDepth (tjson E) msd fuel :=
  funext fun t => by simp only [skipDefaultDepth, skip_textual]

theorem genReadFields_textual {rd rd' : Bytes → Bytes → Member → P (Json τ) (Dyn × GoErr)} {sk sk' : TType → P (Json τ) GoErr}
    {sd : StructDef} (h : ∀ m ∈ sd.members, ∀ fn sn, rd fn sn m = rd' fn sn m) (hsk : sk = sk') :
    ∀ (fuel : Nat) (attrs : List (Int × Dyn)), genReadFields (textual E) rd sk sd fuel attrs = genReadFields (tjson E) rd' sk' sd fuel attrs
  | 0, _ => rfl
  | fuel + 1, attrs => by
    simp only [genReadFields, genReadMember_congr h hsk, genReadFields_textual h hsk fuel]
    rfl

theorem genReadVal_textual (S : Schema) (L : FloatLib) (mem : List Nat → Nat) (msd : Int)
    (hS : ∀ k, ∀ m ∈ (S.structs k).members, m.ty.BinaryFree) : ∀ (fuel : Nat) (path : List Nat) (fn sn : Bytes) (ty : Ty),
    ty.BinaryFree → genReadVal (textual E) S L mem msd fuel path fn sn ty = genReadVal (tjson E) S L mem msd fuel path fn sn ty
  | 0, _, _, _, _, _ => rfl
  | fuel + 1, path, fn, sn, ty, h => by
    have ih := genReadVal_textual S L mem msd hS fuel
    cases ty with
    | binary => exact h.elim
    | struct k =>
      simp only [genReadVal, genReadBody]
      have hf := genReadFields_textual (E := E) (rd := fun fn sn m => genReadVal (textual E) S L mem msd fuel (m.id.toNat :: path) fn sn m.ty)
        (rd' := fun fn sn m => genReadVal (tjson E) S L mem msd fuel (m.id.toNat :: path) fn sn m.ty) (sd := S.structs k)
        (fun m hm fn sn => ih _ fn sn m.ty (hS k m hm)) (skipDefault_textual E msd fuel) fuel
      simp only [hf]
      rfl
    | list e =>
      simp only [genReadVal, fun p => ih p [] [] e h]
      rfl
    | set e =>
      simp only [genReadVal, fun p => ih p [] [] e h]
      rfl
    | map k v =>
      simp only [genReadVal, fun p => ih p [] [] k h.1, fun p => ih p [] [] v h.2]
      rfl
    | _ => rfl

theorem genRead_textual (S : Schema) (L : FloatLib) (mem : List Nat → Nat) (msd : Int)
    (hS : ∀ k, ∀ m ∈ (S.structs k).members, m.ty.BinaryFree) (fuel : Nat) (path : List Nat) (k : Nat) (attrs : List (Int × Dyn)) :
    genReadInto (textual E) S L mem msd fuel path (S.structs k) attrs = genReadInto (tjson E) S L mem msd fuel path (S.structs k) attrs := by
  simp only [genReadInto, genReadBody]
  have hf := genReadFields_textual (E := E) (rd := fun fn sn m => genReadVal (textual E) S L mem msd fuel (m.id.toNat :: path) fn sn m.ty)
    (rd' := fun fn sn m => genReadVal (tjson E) S L mem msd fuel (m.id.toNat :: path) fn sn m.ty) (sd := S.structs k)
    (fun m hm fn sn => genReadVal_textual S L mem msd hS fuel _ fn sn m.ty (hS k m hm)) (skipDefault_textual E msd fuel) fuel
  simp only [hf]
  rfl

end JsonR

/-! ## The writers -/

theorem blind_tjson {τ : Type} (E : JsonEnv τ) : Blind duplex (tjson E) false where
  struct n := Sim.refl _
  boolField n id b := Sim.refl _
  field n t id hb h := by
    have h : t.code ≠ TT.BINARY := by simpa [Ty.header] using h
    rw [Ty.wire_of_header h]
    exact Sim.refl _
  list t n h := by
    have : t.code ≠ TT.BINARY := by simpa [Ty.header] using h
    rw [Ty.wire_of_header this]; exact Sim.refl _
  set t n h := by
    have : t.code ≠ TT.BINARY := by simpa [Ty.header] using h
    rw [Ty.wire_of_header this]; exact Sim.refl _
  map k v n h1 h2 := by
    have h1 : k.code ≠ TT.BINARY := by simpa [Ty.header] using h1
    have h2 : v.code ≠ TT.BINARY := by simpa [Ty.header] using h2
    rw [Ty.wire_of_header h1, Ty.wire_of_header h2]; exact Sim.refl _
  binary h := by cases h

/-! ## Legible objects give readable values -/

namespace JsonT
open JsonSpec

/-- The type is not i16, and no map in it has keys or values of type i16. -/
def Taggable (t : Ty) : Prop := t ≠ .i16 ∧ NoShortEntries t ∧ t.BinaryFree

theorem wire_short {t : Ty} (h : t ≠ .i16) : t.wire ≠ TT.I16 := by
  cases t <;> first | exact absurd rfl h | simp [Ty.wire, Ty.code, TT.I16, TT.BINARY, TT.BOOL, TT.BYTE, TT.I32, TT.I64, TT.DOUBLE, TT.STRING, TT.STRUCT, TT.LIST, TT.SET, TT.MAP]

theorem readable_vals {fl : Dyn → Option Val} (h : ∀ d v, fl d = some v → Legible d → Readable v) :
    ∀ {ds : List Dyn} {vs : Vals}, flatVals fl ds = some vs → (∀ d ∈ ds, Legible d) → ReadableV vs
  | [], vs, hf, _ => by simp only [flatVals, Option.some.injEq] at hf; subst hf; trivial
  | d :: ds, vs, hf, hl => by
    simp only [flatVals] at hf
    split at hf
    · rename_i v r h1 h2
      simp only [Option.some.injEq] at hf; subst hf
      exact ⟨h d v h1 (hl d (by simp)), readable_vals h h2 fun x hx => hl x (by simp [hx])⟩
    · cases hf

theorem readable_pairs {fk fv : Dyn → Option Val} (hk : ∀ d v, fk d = some v → Legible d → Readable v)
    (hv : ∀ d v, fv d = some v → Legible d → Readable v) :
    ∀ {ds : List (Dyn × Dyn)} {ps : Pairs}, flatPairs fk fv ds = some ps → (∀ d ∈ ds, Legible d.1) → (∀ d ∈ ds, Legible d.2) →
      ReadableP ps
  | [], vs, hf, _, _ => by simp only [flatPairs, Option.some.injEq] at hf; subst hf; trivial
  | (a, b) :: ds, vs, hf, h1, h2 => by
    simp only [flatPairs] at hf
    split at hf
    · rename_i v r e1 e2 e3
      simp only [Option.some.injEq] at hf; subst hf
      exact ⟨hk a _ e1 (h1 (a, b) (by simp)), hv b _ e2 (h2 (a, b) (by simp)),
        readable_pairs hk hv e3 (fun x hx => h1 x (by simp [hx])) fun x hx => h2 x (by simp [hx])⟩
    · cases hf

theorem readable_members {fl : Ty → Dyn → Option Val} (attrs : List (Int × Dyn)) (hl : ∀ i, Legible (attributeOf attrs i)) :
    ∀ {ms : List Member} {fs : Fields}, (∀ m ∈ ms, ∀ d v, fl m.ty d = some v → Legible d → v.type ≠ TT.I16 ∧ Readable v) →
      flatMembers S fl attrs ms = some fs → ReadableF fs
  | [], fs, _, hf => by simp only [flatMembers, Option.some.injEq] at hf; subst hf; trivial
  | m :: ms, fs, h, hf => by
    have hms := fun x hx => h x (List.mem_cons_of_mem _ hx)
    simp only [flatMembers] at hf
    split at hf
    · split at hf
      · rename_i v rs h1 h2
        simp only [Option.some.injEq] at hf; subst hf
        have := h m List.mem_cons_self _ _ h1 (hl _)
        exact ⟨this.1, this.2, readable_members attrs hl hms h2⟩
      · cases hf
    · exact readable_members attrs hl hms hf

theorem readable_val (hS : ∀ k, ∀ m ∈ (S.structs k).members, Taggable m.ty) : ∀ (fuel : Nat) (ty : Ty) (d : Dyn) (v : Val),
    flatVal true S fuel ty d = some v → Legible d → NoShortEntries ty → ty.BinaryFree → Readable v := by
  intro fuel
  induction fuel with
  | zero => intro ty d v h; cases h
  | succ fuel ih =>
    intro ty d v h hl hs hb
    simp only [flatVal] at h
    split at h
    · simp only [Option.some.injEq] at h; subst h; trivial
    · simp only [Option.some.injEq] at h; subst h; trivial
    · simp only [Option.some.injEq] at h; subst h; trivial
    · simp only [Option.some.injEq] at h; subst h; trivial
    · simp only [Option.some.injEq] at h; subst h; trivial
    · simp only [Option.some.injEq] at h; subst h; cases hl; assumption
    · simp only [Option.some.injEq] at h; subst h; cases hl; assumption
    · exact hb.elim
    · split at h
      · simp only [Option.some.injEq] at h; subst h; trivial
      · cases h
    · rename_i k ptr nm text fields attrs
      split at h
      · simp only [Option.map_eq_some_iff] at h
        obtain ⟨fs, hfs, rfl⟩ := h
        cases hl with
        | struct _ _ _ _ _ _ hl =>
          refine readable_members attrs hl (fun m hm d v hv hl => ?_) hfs
          obtain ⟨h1, h2, h3⟩ := hS k m (mem_sorted.mp hm)
          exact ⟨by rw [flatVal_type hv]; exact wire_short h1, ih _ _ _ hv hl h2 h3⟩
      · cases h
    · rename_i e _ _ _
      split at h
      · simp only [Option.map_eq_some_iff] at h
        obtain ⟨vs, hvs, rfl⟩ := h
        cases hl with
        | list _ _ _ hl => exact readable_vals (fun d v hv hl => ih e d v hv hl hs hb) hvs hl
      · cases h
    · rename_i e _ _ _ _
      split at h
      · simp only [Option.map_eq_some_iff] at h
        obtain ⟨vs, hvs, rfl⟩ := h
        cases hl with
        | set _ _ _ _ hl => exact readable_vals (fun d v hv hl => ih e d v hv hl hs hb) hvs hl
      · cases h
    · split at h
      · split at h
        · rename_i es hit
          split at h
          · simp only [Option.map_eq_some_iff] at h
            obtain ⟨ps, hps, rfl⟩ := h
            cases hl with
            | map _ _ _ _ _ _ _ l1 l2 =>
              refine ⟨wire_short hs.1, wire_short hs.2.1, readable_pairs (fun d v hv hl => ih _ d v hv hl hs.2.2.1 hb.1)
                (fun d v hv hl => ih _ d v hv hl hs.2.2.2 hb.2) hps (fun x hx => ?_) fun x hx => ?_⟩
              · obtain ⟨y, hy, e1, _⟩ := JsonN.mem_iterated hit x hx
                exact e1 ▸ l1 y hy
              · obtain ⟨y, hy, _, e2⟩ := JsonN.mem_iterated hit x hx
                exact e2 ▸ l2 y hy
          · cases h
        · cases h
      · cases h
    · cases h

/-- The same for the fields of a struct. -/
theorem readable_struct (hS : ∀ k, ∀ m ∈ (S.structs k).members, Taggable m.ty) (fuel k : Nat) (attrs : List (Int × Dyn))
    (hl : ∀ i, Legible (attributeOf attrs i)) (fs : Fields)
    (h : flatMembers S (flatVal true S fuel) attrs (S.structs k).sorted = some fs) : ReadableF fs := by
  refine readable_members attrs hl (fun m hm d v hv hl => ?_) h
  obtain ⟨h1, h2, h3⟩ := hS k m (mem_sorted.mp hm)
  exact ⟨by rw [flatVal_type hv]; exact wire_short h1, readable_val hS _ _ _ _ hv hl h2 h3⟩

end JsonT

end Thrift
