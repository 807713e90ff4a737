import Verif.Spec.JsonNamed
import Verif.Lemmas.JsonBase64
import Verif.Lemmas.GenRoundTrip
/-!
# Generated writers over the simple JSON protocol
-/

namespace Thrift
namespace JsonN
open JsonProtocol JsonSpec JsonW

variable {τ : Type}

theorem digit64_eq (n : Nat) (h : n < 64) : base64.digit64 n = b64char n := by
  have : ∀ n : Fin 64, base64.digit64 n.1 = b64char n.1 := by decide +kernel
  exact this ⟨n, h⟩

theorem base64_eq : ∀ v : Bytes, base64 v = b64encode v
  | [] => rfl
  | [a] => by
    have := a.isLt
    simp only [base64, b64encode]
    rw [digit64_eq _ (by omega), digit64_eq _ (by omega)]
  | [a, b] => by
    have := a.isLt
    have := b.isLt
    simp only [base64, b64encode]
    rw [digit64_eq _ (by omega), digit64_eq _ (by omega), digit64_eq _ (by omega)]
  | a :: b :: c :: r => by
    have := a.isLt
    have := b.isLt
    have := c.isLt
    simp only [base64, b64encode]
    rw [digit64_eq _ (by omega), digit64_eq _ (by omega), digit64_eq _ (by omega), digit64_eq _ (by omega), base64_eq r]

theorem wrapErr_emits {m : P π GoErr} {s s' : π} {bs : Bytes} (w : Err → Err) (h : Emits m s s' bs) : Emits (wrapErr w m) s s' bs := by
  intro inp out
  simp [wrapErr, h inp out]

variable (E : JsonEnv τ) (S : Schema)

/-- The members as the writer gives them in context `c`. -/
def nmembersIn (L : JsonLib) (sd : StructDef) (c : JCtx) : Fields → Bytes
  | .nil => []
  | .cons id v r => sepOf c ++ (L.quote (fieldName sd id) ++ 58 :: (ntext L S v (fieldTy sd id) ++ nmembersIn L sd .nextKey r))

theorem nmembersIn_first (L : JsonLib) (sd : StructDef) : ∀ fs : Fields, nmembersIn S L sd .objectFirst fs = nmembers L S sd fs ∧
    nmembersIn S L sd .nextKey fs = (match fs with | .nil => [] | _ => 44 :: nmembers L S sd fs)
  | .nil => ⟨rfl, rfl⟩
  | .cons id v .nil => by simp [nmembersIn, nmembers, sepOf]
  | .cons id v (.cons id' v' r) => by
    have := (nmembersIn_first L sd (.cons id' v' r)).2
    simp only at this
    refine ⟨?_, ?_⟩
    · rw [nmembersIn, this, nmembers]; simp [sepOf]
    · rw [nmembersIn, this]; simp only [nmembers]; simp [sepOf]

theorem emits_nmapBegin (kt vt : TType) (n : Nat) (h : n < 2 ^ 31) (s : Json τ) (c : JCtx) (r : List JCtx) :
    Emits (JsonProtocol.writeMapBegin E kt vt n) (s.at c r) (s.at .list (c :: r))
      (sepOf c ++ 91 :: (decimal kt.toNat ++ 44 :: (decimal vt.toNat ++ 44 :: decimal n))) := by
  unfold JsonProtocol.writeMapBegin outputListBegin
  refine (Emits.seq (emits_begin LBRACKET .listFirst s c r) (Emits.seq (emits_byte E kt s .listFirst (c :: r) rfl)
    (Emits.seq (emits_byte E vt s .list (c :: r) rfl) (emits_i32 E _ s .list (c :: r) rfl)))).congr ?_
  have : (BitVec.ofInt 32 (n : Int)).toInt = n := by
    rw [BitVec.toInt_ofInt]
    rw [Int.bmod_eq_of_le] <;> omega
  rw [this]
  simp [sepOf, LBRACKET]

theorem fieldName_of {sd : StructDef} {m : Member} {id : I16} (h : sd.byId id = some m) : fieldName sd id = m.name := by
  rw [StructDef.byId] at h
  simp only [fieldName, h]
theorem fieldTy_of {sd : StructDef} {m : Member} {id : I16} (h : sd.byId id = some m) : fieldTy sd id = m.ty := by
  rw [StructDef.byId] at h
  simp only [fieldTy, h]

variable {S} {E}

theorem emits_nelems {wr : Dyn → P (Json τ) GoErr} {fl : Dyn → Option Val} {e : Ty}
    (h : ∀ d v (s : Json τ) r, fl d = some v → v.WF → Emits (wr d) (s.at .list r) (s.at .list r) (44 :: ntext E.L S v e)) :
    ∀ {ds : List Dyn} {vs : Vals} {t : Byte} (s : Json τ) (r : List JCtx), flatVals fl ds = some vs → vs.WF t →
      Emits (genWriteElems wr ds) (s.at .list r) (s.at .list r) (nelements E.L S e vs)
  | [], vs, t, s, r, hf, hw => by
    simp only [flatVals, Option.some.injEq] at hf; subst hf; exact Emits.pure _
  | d :: ds, vs, t, s, r, hf, hw => by
    simp only [flatVals] at hf
    split at hf
    · rename_i v rs h1 h2
      simp only [Option.some.injEq] at hf; subst hf
      simp only [genWriteElems]
      refine (Emits.seq (h d v s r h1 hw.2.1) (emits_nelems h s r h2 hw.2.2)).congr ?_
      simp [nelements]
    · cases hf

theorem emits_nentries {wk wv : Dyn → P (Json τ) GoErr} {fk fv : Dyn → Option Val} {ek ev : Ty}
    (hk : ∀ d v (s : Json τ) r, fk d = some v → v.WF → Emits (wk d) (s.at .list r) (s.at .list r) (44 :: ntext E.L S v ek))
    (hv : ∀ d v (s : Json τ) r, fv d = some v → v.WF → Emits (wv d) (s.at .list r) (s.at .list r) (44 :: ntext E.L S v ev)) :
    ∀ {ds : List (Dyn × Dyn)} {ps : Pairs} {kt vt : Byte} (s : Json τ) (r : List JCtx), flatPairs fk fv ds = some ps → ps.WF kt vt →
      Emits (genWriteEntries wk wv ds) (s.at .list r) (s.at .list r) (npairs E.L S ek ev ps)
  | [], vs, _, _, s, r, hf, hw => by
    simp only [flatPairs, Option.some.injEq] at hf; subst hf; exact Emits.pure _
  | (k, v) :: ds, vs, kt, vt, s, r, hf, hw => by
    simp only [flatPairs] at hf
    split at hf
    · rename_i k' v' rs h1 h2 h3
      simp only [Option.some.injEq] at hf; subst hf
      simp only [genWriteEntries]
      obtain ⟨_, _, w1, w2, w3⟩ := hw
      refine (Emits.seq (hk k k' s r h1 w1) (Emits.seq (hv v v' s r h2 w2) (emits_nentries hk hv s r h3 w3))).congr ?_
      simp [npairs]
    · cases hf

theorem emits_nmembers {fl : Ty → Dyn → Option Val} {wr : Bytes → Bytes → Ty → Dyn → P (Json τ) GoErr} {sd : StructDef} (hsd : sd.Ok)
    (hty : ∀ m ∈ sd.members, NoBinaryElements m.ty)
    (h : ∀ fn sn t d v (s : Json τ) r, fl t d = some v → v.WF → NoBinaryElements t →
      Emits (wr fn sn t d) (s.at .nextValue r) (s.at .nextKey r) (58 :: ntext E.L S v t)) (attrs : List (Int × Dyn)) :
    ∀ {ms : List Member} {fs : Fields} (s : Json τ) (c : JCtx) (r : List JCtx), (∀ m ∈ ms, m ∈ sd.members) →
      flatMembers S fl attrs ms = some fs → fs.WF → JCtx.isKey c = true →
      Emits (genWriteMembers (simpleJson E) S wr sd attrs ms) (s.at c r) (s.at (afterFields c fs) r) (nmembersIn S E.L sd c fs)
  | [], fs, s, c, r, hm, hf, _, _ => by simp only [flatMembers, Option.some.injEq] at hf; subst hf; exact Emits.pure _
  | m :: ms, fs, s, c, r, hm, hf, hw, hc => by
    simp only [flatMembers] at hf
    simp only [genWriteMembers, genWriteMember]
    have hms : ∀ x ∈ ms, x ∈ sd.members := fun x hx => hm x (List.mem_cons_of_mem _ hx)
    have hmm := hm m List.mem_cons_self
    by_cases hwr : m.written S (attributeOf attrs m.id.toInt)
    · simp only [hwr, if_true] at hf ⊢
      split at hf
      · rename_i v rs h1 h2
        simp only [Option.some.injEq] at hf; subst hf
        have hn : JCtx.next c = .nextValue := by cases c <;> first | rfl | simp [JCtx.isKey] at hc
        have e1 := emits_string E m.name s c r
        rw [hn] at e1
        have e2 := h m.name sd.name m.ty _ v s r h1 hw.1 (hty m hmm)
        have e4 := emits_nmembers hsd hty h attrs s .nextKey r hms h2 hw.2 rfl
        refine (Emits.seq (Emits.seq (wrapErr_emits _ e1) (Emits.seq e2 (wrapErr_emits _ (Emits.pure (s.at .nextKey r))))) e4).congr ?_
        have hb := byId_member hsd hmm
        rw [nmembersIn, fieldName_of hb, fieldTy_of hb]
        simp
      · cases hf
    · simp only [hwr] at hf ⊢
      refine (Emits.seq (m := pure none) (Emits.pure (s.at c r)) (emits_nmembers hsd hty h attrs s c r hms hf hw hc)).congr ?_
      simp

theorem emits_nbody {fl : Ty → Dyn → Option Val} {wr : Bytes → Bytes → Ty → Dyn → P (Json τ) GoErr} {sd : StructDef} (hsd : sd.Ok)
    (hty : ∀ m ∈ sd.members, NoBinaryElements m.ty)
    (h : ∀ fn sn t d v (s : Json τ) r, fl t d = some v → v.WF → NoBinaryElements t →
      Emits (wr fn sn t d) (s.at .nextValue r) (s.at .nextKey r) (58 :: ntext E.L S v t)) (attrs : List (Int × Dyn))
    {fs : Fields} (s : Json τ) (c : JCtx) (r : List JCtx) (hf : flatMembers S fl attrs sd.sorted = some fs) (hw : fs.WF) :
    Emits (genWriteBody (simpleJson E) sd (genWriteMembers (simpleJson E) S wr sd attrs sd.sorted)) (s.at c r) (s.at (JCtx.next c) r)
      (sepOf c ++ 123 :: (nmembers E.L S sd fs ++ [125])) := by
  simp only [genWriteBody]
  refine (Emits.seq (wrapErr_emits _ (emits_begin LBRACE .objectFirst s c r)) (Emits.seq
    (emits_nmembers hsd hty h attrs s .objectFirst (c :: r) (fun m hm => mem_sorted.mp hm) hf hw rfl)
    (Emits.seq (wrapErr_emits _ (Emits.pure _)) (wrapErr_emits _ (emits_end RBRACE s (afterFields .objectFirst fs) c r))))).congr ?_
  rw [(nmembersIn_first S E.L sd fs).1]
  simp [LBRACE, RBRACE]

theorem wire_code {t : Ty} (h : t ≠ .binary) : t.wire = t.code := by
  cases t <;> first | rfl | exact absurd rfl h

theorem emits_nval (hS : S.Ok) (hN : Nameable S) : ∀ (fuel : Nat) (fn sn : Bytes) (ty : Ty) (d : Dyn) (v : Val) (s : Json τ) (c : JCtx)
    (r : List JCtx), flatVal true S fuel ty d = some v → v.WF → NoBinaryElements ty → JCtx.isKey c = false →
    Emits (genWriteVal (simpleJson E) S fuel fn sn ty d) (s.at c r) (s.at (JCtx.next c) r) (sepOf c ++ ntext E.L S v ty) := by
  intro fuel
  induction fuel with
  | zero => intro fn sn ty d v s c r h; cases h
  | succ fuel ih =>
    intro fn sn ty d v s c r h hw hb hc
    have ihl : ∀ (e : Ty), NoBinaryElements e → ∀ d v (s : Json τ) r, flatVal true S fuel e d = some v → v.WF →
        Emits (genWriteVal (simpleJson E) S fuel [] [] e d) (s.at .list r) (s.at .list r) (44 :: ntext E.L S v e) :=
      fun e he d v s r hf hv => ih [] [] e d v s .list r hf hv he rfl
    simp only [flatVal] at h
    split at h
    · simp only [Option.some.injEq] at h; subst h
      refine wrapErr_emits _ ((emits_text _ _ s c r).congr ?_)
      rename_i b
      rw [hc]; cases b <;> rfl
    · simp only [Option.some.injEq] at h; subst h
      exact wrapErr_emits _ (emits_byte E _ s c r hc)
    · simp only [Option.some.injEq] at h; subst h
      exact wrapErr_emits _ (emits_i16 E _ s c r hc)
    · simp only [Option.some.injEq] at h; subst h
      exact wrapErr_emits _ (emits_i32 E _ s c r hc)
    · simp only [Option.some.injEq] at h; subst h
      exact wrapErr_emits _ (emits_i64 E _ s c r hc)
    · simp only [Option.some.injEq] at h; subst h
      exact wrapErr_emits _ (emits_double E _ s c r hc)
    · simp only [Option.some.injEq] at h; subst h
      exact wrapErr_emits _ (emits_string E _ s c r)
    · simp only [if_true, Option.some.injEq] at h; subst h
      refine (wrapErr_emits _ (JsonB.emits_binary (E := E) _ s c r)).congr ?_
      simp [ntext, JsonB.base64Text, base64_eq]
    · split at h
      · rename_i hk
        simp only [Option.some.injEq] at h; subst h hk
        simp only [genWriteVal, if_true]
        exact wrapErr_emits _ (emits_i32 E _ s c r hc)
      · cases h
    · split at h
      · rename_i k _ _ _ _ _ hn
        simp only [Option.map_eq_some_iff] at h
        obtain ⟨fs, hfs, rfl⟩ := h
        simp only [genWriteVal, hn, if_true]
        refine wrapErr_emits _ ?_
        exact emits_nbody (hS k) (fun m hm => (hN k m hm).2)
          (fun fn sn t d v s r hf hv ht => ih fn sn t d v s .nextValue r hf hv ht rfl) _ s c r hfs hw
      · cases h
    · split at h
      · simp only [Option.map_eq_some_iff] at h
        obtain ⟨vs, hvs, rfl⟩ := h
        obtain ⟨w1, w2, w3⟩ := hw
        simp only [genWriteVal, ← flatVals_length hvs, ← wire_code hb.1]
        refine (Emits.seq (wrapErr_emits _ (emits_listBegin E _ vs.length w2 s c r))
          (Emits.seq (emits_nelems (ihl _ hb.2) s (c :: r) hvs w3) (wrapErr_emits _ (emits_end RBRACKET s .list c r)))).congr ?_
        simp [ntext, RBRACKET]
      · cases h
    · split at h
      · rename_i hh
        simp only [Option.map_eq_some_iff] at h
        obtain ⟨vs, hvs, rfl⟩ := h
        obtain ⟨w1, w2, w3⟩ := hw
        simp only [genWriteVal, hh.2, ← flatVals_length hvs, ← wire_code hb.1]
        refine (Emits.seq (wrapErr_emits _ (emits_listBegin E _ vs.length w2 s c r))
          (Emits.seq (emits_nelems (ihl _ hb.2) s (c :: r) hvs w3) (wrapErr_emits _ (emits_end RBRACKET s .list c r)))).congr ?_
        simp [ntext, RBRACKET]
      · cases h
    · split at h
      · rename_i hh
        split at h
        · rename_i es hit
          split at h
          · rename_i hlen
            simp only [Option.map_eq_some_iff] at h
            obtain ⟨ps, hps, rfl⟩ := h
            obtain ⟨w1, w2, w3, w4⟩ := hw
            simp only [genWriteVal, hh.2.2, ← hlen, ← flatPairs_length hps, hit, ← wire_code hb.1, ← wire_code hb.2.1]
            refine (Emits.seq (wrapErr_emits _ (emits_nmapBegin E _ _ ps.length w3 s c r))
              (Emits.seq (emits_nentries (ihl _ hb.2.2.1) (ihl _ hb.2.2.2) s (c :: r) hps w4)
                (wrapErr_emits _ (emits_end RBRACKET s .list c r)))).congr ?_
            simp [ntext, RBRACKET]
          · cases h
        · cases h
      · cases h
    · cases h

theorem emits_nstruct (hS : S.Ok) (hN : Nameable S) (fuel k : Nat) (attrs : List (Int × Dyn)) (fs : Fields) (s : Json τ) (c : JCtx)
    (r : List JCtx) (hf : flatMembers S (flatVal true S fuel) attrs (S.structs k).sorted = some fs) (hw : fs.WF) :
    Emits (genWrite (simpleJson E) S fuel (S.structs k) attrs) (s.at c r) (s.at (JCtx.next c) r)
      (sepOf c ++ ntext E.L S (.struct fs) (.struct k)) := by
  simp only [genWrite]
  exact emits_nbody (hS k) (fun m hm => (hN k m hm).2)
    (fun fn sn t d v s r hf hv ht => emits_nval hS hN fuel fn sn t d v s .nextValue r hf hv ht rfl) _ s c r hf hw

end JsonN
end Thrift
