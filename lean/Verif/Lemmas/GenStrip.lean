import Verif.Lemmas.GenRoundTrip
import Verif.Lemmas.CompactValue
/-!
# Undeclared fields leave no trace
-/

namespace Thrift

variable {S : Schema} {L : FloatLib} {mem : List Nat → Nat}

theorem Val.strip_type (v : Val) (ty : Ty) : (v.strip S ty).type = v.type := by
  cases v <;> cases ty <;> rfl

theorem Vals.strip_length (e : Ty) : ∀ vs : Vals, (vs.strip S e).length = vs.length
  | .nil => rfl
  | .cons v r => by simp [Vals.strip, Vals.length, Vals.strip_length e r]

theorem Pairs.strip_length (k v : Ty) : ∀ ps : Pairs, (ps.strip S k v).length = ps.length
  | .nil => rfl
  | .cons _ _ r => by simp [Pairs.strip, Pairs.length, Pairs.strip_length k v r]

mutual
theorem Val.strip_build : ∀ (v : Val) (path : List Nat) (ty : Ty),
    buildVal S L mem (v.strip S ty) path ty = buildVal S L mem v path ty
  | .struct fs, path, .struct k => by
    simp only [Val.strip, buildVal, Fields.strip_build fs path (S.structs k)]
  | .map _ _ ps, path, .map k v => by
    simp only [Val.strip, buildVal, Pairs.strip_build ps path k v, Pairs.strip_length]
  | .set _ vs, path, .set e => by
    simp only [Val.strip, buildVal, Vals.strip_buildSet vs path e, Vals.strip_length]
  | .list _ vs, path, .list e => by
    simp only [Val.strip, buildVal, Vals.strip_buildList vs path e]
  | .bool _, _, ty | .byte _, _, ty | .i16 _, _, ty | .i32 _, _, ty | .i64 _, _, ty | .double _, _, ty | .str _, _, ty => by
    cases ty <;> rfl
  | .struct _, _, .bool | .struct _, _, .byte | .struct _, _, .i16 | .struct _, _, .i32 | .struct _, _, .i64 | .struct _, _, .double
  | .struct _, _, .string | .struct _, _, .binary | .struct _, _, .enum _ | .struct _, _, .list _ | .struct _, _, .set _
  | .struct _, _, .map .. => rfl
  | .map .., _, .bool | .map .., _, .byte | .map .., _, .i16 | .map .., _, .i32 | .map .., _, .i64 | .map .., _, .double
  | .map .., _, .string | .map .., _, .binary | .map .., _, .enum _ | .map .., _, .list _ | .map .., _, .set _
  | .map .., _, .struct _ => rfl
  | .set .., _, .bool | .set .., _, .byte | .set .., _, .i16 | .set .., _, .i32 | .set .., _, .i64 | .set .., _, .double
  | .set .., _, .string | .set .., _, .binary | .set .., _, .enum _ | .set .., _, .list _ | .set .., _, .map ..
  | .set .., _, .struct _ => rfl
  | .list .., _, .bool | .list .., _, .byte | .list .., _, .i16 | .list .., _, .i32 | .list .., _, .i64 | .list .., _, .double
  | .list .., _, .string | .list .., _, .binary | .list .., _, .enum _ | .list .., _, .set _ | .list .., _, .map ..
  | .list .., _, .struct _ => rfl
theorem Fields.strip_build : ∀ (fs : Fields) (path : List Nat) (sd : StructDef) (attrs : List (Int × Dyn)),
    buildFields S L mem (fs.strip S sd) path sd attrs = buildFields S L mem fs path sd attrs
  | .nil, _, _, _ => rfl
  | .cons id v r, path, sd, attrs => by
    have e : sd.byId id = sd.members.find? fun m => id = m.id := rfl
    cases h : sd.members.find? fun m => id = m.id with
    | none => simp only [Fields.strip, buildFields, e, h, Fields.strip_build r]
    | some m => simp only [Fields.strip, buildFields, e, h, Val.strip_build v, Fields.strip_build r]
theorem Vals.strip_buildList : ∀ (vs : Vals) (path : List Nat) (e : Ty) (i : Nat) (l : TList),
    buildList S L mem (vs.strip S e) path e i l = buildList S L mem vs path e i l
  | .nil, _, _, _, _ => rfl
  | .cons v r, path, e, i, l => by simp only [Vals.strip, buildList, Val.strip_build v, Vals.strip_buildList r]
theorem Vals.strip_buildSet : ∀ (vs : Vals) (path : List Nat) (e : Ty) (i : Nat) (l : TSet),
    buildSet S L mem (vs.strip S e) path e i l = buildSet S L mem vs path e i l
  | .nil, _, _, _, _ => rfl
  | .cons v r, path, e, i, l => by simp only [Vals.strip, buildSet, Val.strip_build v, Vals.strip_buildSet r]
theorem Pairs.strip_build : ∀ (ps : Pairs) (path : List Nat) (kt vt : Ty) (i : Nat) (l : TMap),
    buildPairs S L mem (ps.strip S kt vt) path kt vt i l = buildPairs S L mem ps path kt vt i l
  | .nil, _, _, _, _, _ => rfl
  | .cons k v r, path, kt, vt, i, l => by
    simp only [Pairs.strip, buildPairs, Val.strip_build k, Val.strip_build v, Pairs.strip_build r]
end

mutual
theorem Val.strip_wf : ∀ (v : Val) (ty : Ty), v.WF → (v.strip S ty).WF
  | .struct fs, ty, h => by
    cases ty <;> first | exact h | exact Fields.strip_wf fs _ h
  | .map _ _ ps, ty, h => by
    cases ty <;> first | exact h | exact ⟨h.1, h.2.1, by rw [Pairs.strip_length]; exact h.2.2.1, Pairs.strip_wf _ _ ps _ _ h.2.2.2⟩
  | .set _ vs, ty, h => by
    cases ty <;> first | exact h | exact ⟨h.1, by rw [Vals.strip_length]; exact h.2.1, Vals.strip_wf _ vs _ h.2.2⟩
  | .list _ vs, ty, h => by
    cases ty <;> first | exact h | exact ⟨h.1, by rw [Vals.strip_length]; exact h.2.1, Vals.strip_wf _ vs _ h.2.2⟩
  | .bool _, ty, h | .byte _, ty, h | .i16 _, ty, h | .i32 _, ty, h | .i64 _, ty, h | .double _, ty, h | .str _, ty, h => by
    cases ty <;> exact h
theorem Fields.strip_wf : ∀ (fs : Fields) (sd : StructDef), fs.WF → (fs.strip S sd).WF
  | .nil, _, _ => trivial
  | .cons id v r, sd, h => by
    simp only [Fields.strip]
    split
    · exact ⟨Val.strip_wf v _ h.1, Fields.strip_wf r sd h.2⟩
    · exact Fields.strip_wf r sd h.2
theorem Vals.strip_wf (t : Byte) : ∀ (vs : Vals) (e : Ty), vs.WF t → (vs.strip S e).WF t
  | .nil, _, _ => trivial
  | .cons v r, e, h => ⟨(Val.strip_type v e).trans h.1, Val.strip_wf v e h.2.1, Vals.strip_wf t r e h.2.2⟩
theorem Pairs.strip_wf (kt vt : Byte) : ∀ (ps : Pairs) (k v : Ty), ps.WF kt vt → (ps.strip S k v).WF kt vt
  | .nil, _, _, _ => trivial
  | .cons a b r, k, v, h => ⟨(Val.strip_type a k).trans h.1, (Val.strip_type b v).trans h.2.1, Val.strip_wf a k h.2.2.1,
      Val.strip_wf b v h.2.2.2.1, Pairs.strip_wf kt vt r k v h.2.2.2.2⟩
end

mutual
theorem Val.strip_conforms (hS : S.Ok) : ∀ (v : Val) (ty : Ty), v.Conforms S ty → (v.strip S ty).Conforms S ty
  | .struct fs, ty, h => by
    cases ty <;> first | exact h | exact Fields.strip_conforms hS fs _ (hS _) h
  | .map _ _ ps, ty, h => by
    cases ty <;> first | exact h | exact Pairs.strip_conforms hS ps _ _ h
  | .set _ vs, ty, h => by
    cases ty <;> first | exact h | exact Vals.strip_conforms hS vs _ h
  | .list _ vs, ty, h => by
    cases ty <;> first | exact h | exact Vals.strip_conforms hS vs _ h
  | .bool _, ty, h | .byte _, ty, h | .i16 _, ty, h | .i32 _, ty, h | .i64 _, ty, h | .double _, ty, h | .str _, ty, h => by
    cases ty <;> exact h
theorem Fields.strip_conforms (hS : S.Ok) : ∀ (fs : Fields) (sd : StructDef), sd.Ok → fs.Conforms S sd → (fs.strip S sd).Conforms S sd
  | .nil, _, _, _ => trivial
  | .cons id v r, sd, hsd, h => by
    cases hf : sd.members.find? fun m => id = m.id with
    | none =>
      simp only [Fields.strip, hf]
      exact Fields.strip_conforms hS r sd hsd h.2.2
    | some m =>
      have hm := List.mem_of_find?_eq_some hf
      have hid := List.find?_some hf
      simp only [decide_eq_true_eq] at hid
      simp only [Fields.strip, hf]
      refine ⟨fun m' hm' he => ?_, h.2.1, Fields.strip_conforms hS r sd hsd h.2.2⟩
      rw [member_unique hsd hm' hm (he.trans hid)]
      exact Val.strip_conforms hS v _ (h.1 m hm hid.symm)
theorem Vals.strip_conforms (hS : S.Ok) : ∀ (vs : Vals) (e : Ty), vs.Conforms S e → (vs.strip S e).Conforms S e
  | .nil, _, _ => trivial
  | .cons v r, e, h => ⟨Val.strip_conforms hS v e h.1, Vals.strip_conforms hS r e h.2⟩
theorem Pairs.strip_conforms (hS : S.Ok) : ∀ (ps : Pairs) (k v : Ty), ps.Conforms S k v → (ps.strip S k v).Conforms S k v
  | .nil, _, _, _ => trivial
  | .cons a b r, k, v, h => ⟨Val.strip_conforms hS a k h.1, Val.strip_conforms hS b v h.2.1, Pairs.strip_conforms hS r k v h.2.2⟩
end

mutual
theorem Val.strip_size : ∀ (v : Val) (ty : Ty), (v.strip S ty).size ≤ v.size
  | .struct fs, ty => by
    cases ty <;> first | exact Nat.le_refl _ | exact Nat.succ_le_succ (Fields.strip_size fs _)
  | .map _ _ ps, ty => by
    cases ty <;> first | exact Nat.le_refl _ | exact Nat.succ_le_succ (Pairs.strip_size ps _ _)
  | .set _ vs, ty => by
    cases ty <;> first | exact Nat.le_refl _ | exact Nat.succ_le_succ (Vals.strip_size vs _)
  | .list _ vs, ty => by
    cases ty <;> first | exact Nat.le_refl _ | exact Nat.succ_le_succ (Vals.strip_size vs _)
  | .bool _, ty | .byte _, ty | .i16 _, ty | .i32 _, ty | .i64 _, ty | .double _, ty | .str _, ty => by
    cases ty <;> exact Nat.le_refl _
theorem Fields.strip_size : ∀ (fs : Fields) (sd : StructDef), (fs.strip S sd).size ≤ fs.size
  | .nil, _ => Nat.le_refl _
  | .cons id v r, sd => by
    have h := Fields.strip_size r sd
    cases hf : sd.members.find? fun m => id = m.id with
    | none => simp only [Fields.strip, hf, Fields.size]; omega
    | some m =>
      have := Val.strip_size v m.ty
      simp only [Fields.strip, hf, Fields.size]; omega
theorem Vals.strip_size : ∀ (vs : Vals) (e : Ty), (vs.strip S e).size ≤ vs.size
  | .nil, _ => Nat.le_refl _
  | .cons v r, e => Nat.add_le_add (Val.strip_size v e) (Vals.strip_size r e)
theorem Pairs.strip_size : ∀ (ps : Pairs) (k v : Ty), (ps.strip S k v).size ≤ ps.size
  | .nil, _, _ => Nat.le_refl _
  | .cons a b r, k, v => Nat.add_le_add (Nat.add_le_add (Val.strip_size a k) (Val.strip_size b v)) (Pairs.strip_size r k v)
end

/-! ## Normalised trees -/

mutual
theorem Val.norm_strip : ∀ (v : Val) (ty : Ty), (v.strip S ty).norm = v.norm.strip S ty
  | .struct fs, ty => by
    cases ty <;> first | rfl | simp only [Val.strip, Val.norm, Fields.norm_strip fs]
  | .map _ _ .nil, ty => by
    cases ty <;> rfl
  | .map _ _ (.cons k v r), ty => by
    cases ty <;> first | rfl | simp only [Val.strip, Val.norm, Pairs.strip, Val.norm_strip k, Val.norm_strip v, Pairs.norm_strip r]
  | .set _ vs, ty => by
    cases ty <;> first | rfl | simp only [Val.strip, Val.norm, Vals.norm_strip vs]
  | .list _ vs, ty => by
    cases ty <;> first | rfl | simp only [Val.strip, Val.norm, Vals.norm_strip vs]
  | .bool _, ty | .byte _, ty | .i16 _, ty | .i32 _, ty | .i64 _, ty | .double _, ty | .str _, ty => by
    cases ty <;> rfl
theorem Fields.norm_strip : ∀ (fs : Fields) (sd : StructDef), (fs.strip S sd).norm = fs.norm.strip S sd
  | .nil, _ => rfl
  | .cons id v r, sd => by
    cases hf : sd.members.find? fun m => id = m.id with
    | none => simp only [Fields.strip, Fields.norm, hf, Fields.norm_strip r]
    | some m => simp only [Fields.strip, Fields.norm, hf, Fields.norm_strip r, Val.norm_strip v]
theorem Vals.norm_strip : ∀ (vs : Vals) (e : Ty), (vs.strip S e).norm = vs.norm.strip S e
  | .nil, _ => rfl
  | .cons v r, e => by simp only [Vals.strip, Vals.norm, Val.norm_strip v, Vals.norm_strip r]
theorem Pairs.norm_strip : ∀ (ps : Pairs) (k v : Ty), (ps.strip S k v).norm = ps.norm.strip S k v
  | .nil, _, _ => rfl
  | .cons a b r, k, v => by simp only [Pairs.strip, Pairs.norm, Val.norm_strip a, Val.norm_strip b, Pairs.norm_strip r]
end

mutual
theorem Val.norm_conforms : ∀ (v : Val) (ty : Ty), v.Conforms S ty → v.norm.Conforms S ty
  | .struct fs, ty, h => by
    cases ty <;> first | exact h.elim | exact Fields.norm_conforms fs _ h
  | .map _ _ .nil, ty, h => by
    cases ty <;> first | exact h.elim | exact trivial
  | .map _ _ (.cons k v r), ty, h => by
    cases ty <;> first | exact h.elim | exact ⟨Val.norm_conforms k _ h.1, Val.norm_conforms v _ h.2.1, Pairs.norm_conforms r _ _ h.2.2⟩
  | .set _ vs, ty, h => by
    cases ty <;> first | exact h.elim | exact Vals.norm_conforms vs _ h
  | .list _ vs, ty, h => by
    cases ty <;> first | exact h.elim | exact Vals.norm_conforms vs _ h
  | .bool _, ty, h | .byte _, ty, h | .i16 _, ty, h | .i32 _, ty, h | .i64 _, ty, h | .double _, ty, h | .str _, ty, h => h
theorem Fields.norm_conforms : ∀ (fs : Fields) (sd : StructDef), fs.Conforms S sd → fs.norm.Conforms S sd
  | .nil, _, _ => trivial
  | .cons _ v r, sd, h => ⟨fun m hm he => Val.norm_conforms v _ (h.1 m hm he), h.2.1, Fields.norm_conforms r sd h.2.2⟩
theorem Vals.norm_conforms : ∀ (vs : Vals) (e : Ty), vs.Conforms S e → vs.norm.Conforms S e
  | .nil, _, _ => trivial
  | .cons v r, e, h => ⟨Val.norm_conforms v e h.1, Vals.norm_conforms r e h.2⟩
theorem Pairs.norm_conforms : ∀ (ps : Pairs) (k v : Ty), ps.Conforms S k v → ps.norm.Conforms S k v
  | .nil, _, _, _ => trivial
  | .cons a b r, k, v, h => ⟨Val.norm_conforms a k h.1, Val.norm_conforms b v h.2.1, Pairs.norm_conforms r k v h.2.2⟩
end

end Thrift
