/- Objects that were read are written like those that were sent. -/
import Verif.Lemmas.Across

namespace Thrift

variable {S : Schema} {π : Type}

theorem F64.eq_right {a b : F64} (h : F64.eq a b = true) : F64.eq b b = true := by
  simp only [F64.eq, Bool.and_eq_true, Bool.not_eq_true'] at h ⊢
  simp [h.1]

/-- Nothing but the shape and numbers decide whether a field is written. -/
theorem Received.written {m : Member} {d d' : Dyn} (h : Received S S True m.ty d d') : m.written S d' = m.written S d := by
  generalize ht : m.ty = t at h
  cases h with
  | leaf _ _ he => rw [he trivial]
  | enum k v t => simp [Member.written, Member.isSet, ht, Ty.canBeNil, Ty.isEnum]
  | struct => simp [Member.written, Member.isSet, ht, StructDef.object, Dyn.isNil]
  | list len => simp [Member.written, Member.isSet, ht, Dyn.isNil, len]
  | set len => simp [Member.written, Member.isSet, ht, Dyn.isNil]
  | map len => simp [Member.written, Member.isSet, ht, Dyn.isNil]

/-- An optional field with the default value is not written, nor is one like it. -/
theorem unwritten_default {m : Member} {d : Dyn} (hc : m.ty = .double → m.initial S = .float64 m.check) (ho : m.optional = true)
    (hl : m.ty.Leaf) (hf : Fine S m.ty d) (hs : Same d (m.initial S)) (hne : d ≠ m.initial S) :
    m.written S d = false ∧ m.written S (m.initial S) = false := by
  cases hty : m.ty <;> rw [hty] at hf hl hc <;> first | exact hl.elim | skip
  case double =>
    cases hf with
    | double a =>
      rw [hc rfl] at hs hne ⊢
      cases hs with
      | refl => exact absurd rfl hne
      | float h => simp [Member.written, Member.isSet, hty, ho, Ty.canBeNil, Ty.isEnum, h, F64.eq_right h]
  all_goals
    cases hf
    generalize m.initial S = i at hs hne
    cases hs
    exact absurd rfl hne

theorem getD_mem {α : Type} {l : List α} {a : α} {i : Nat} (hi : i < l.length) : l.getD i a ∈ l := by
  rw [List.getD_eq_getElem?_getD, List.getElem?_eq_getElem hi]; exact List.getElem_mem hi

theorem genWriteElems_congr {wr : Dyn → P π GoErr} : ∀ {as bs : List Dyn}, as.length = bs.length →
    (∀ i, i < as.length → wr (bs.getD i .nil) = wr (as.getD i .nil)) → genWriteElems wr bs = genWriteElems wr as
  | [], [], _, _ => rfl
  | [], _ :: _, h, _ => by simp at h
  | _ :: _, [], h, _ => by simp at h
  | a :: as, b :: bs, hl, h => by
    have h0 := h 0 (by simp)
    simp only [List.getD_cons_zero] at h0
    have ih := genWriteElems_congr (wr := wr) (as := as) (bs := bs) (by simpa using hl) fun i hi => by
      have := h (i + 1) (by simpa using hi)
      simpa using this
    simp only [genWriteElems, h0, ih]

theorem genWriteEntries_congr {wk wv : Dyn → P π GoErr} : ∀ {as bs : List (Dyn × Dyn)}, as.length = bs.length →
    (∀ i, i < as.length → wk (bs.getD i (.nil, .nil)).1 = wk (as.getD i (.nil, .nil)).1) →
    (∀ i, i < as.length → wv (bs.getD i (.nil, .nil)).2 = wv (as.getD i (.nil, .nil)).2) → genWriteEntries wk wv bs = genWriteEntries wk wv as
  | [], [], _, _, _ => rfl
  | [], _ :: _, h, _, _ => by simp at h
  | _ :: _, [], h, _, _ => by simp at h
  | (a, a') :: as, (b, b') :: bs, hl, h, h' => by
    have h0 := h 0 (by simp)
    have h1 := h' 0 (by simp)
    simp only [List.getD_cons_zero] at h0 h1
    have ih := genWriteEntries_congr (wk := wk) (wv := wv) (as := as) (bs := bs) (by simpa using hl)
      (fun i hi => by
        have := h (i + 1) (by simpa using hi)
        simpa using this)
      fun i hi => by
        have := h' (i + 1) (by simpa using hi)
        simpa using this
    simp only [genWriteEntries, h0, h1, ih]

theorem genWriteMembers_congr {p : Proto π} {wr : Bytes → Bytes → Ty → Dyn → P π GoErr} {sd : StructDef} {as bs : Attrs} : ∀ {ms : List Member},
    (∀ m ∈ ms, genWriteMember p S wr sd bs m = genWriteMember p S wr sd as m) → genWriteMembers p S wr sd bs ms = genWriteMembers p S wr sd as ms
  | [], _ => rfl
  | m :: ms, h => by
    simp only [genWriteMembers, h m List.mem_cons_self, genWriteMembers_congr fun x hx => h x (List.mem_cons_of_mem _ hx)]

/-- The members of an object that was received, given it for their values. -/
theorem forward_members (p : Proto π) {k : Nat} {as bs : Attrs} {wr : Bytes → Bytes → Ty → Dyn → P π GoErr}
    (check : ∀ m ∈ (S.structs k).members, m.ty = .double → m.initial S = .float64 m.check)
    (fine : ∀ m ∈ (S.structs k).members, ¬ m.Unset S (attributeOf as m.id.toInt) → Fine S m.ty (attributeOf as m.id.toInt))
    (unset : ∀ m ∈ (S.structs k).members, m.Unset S (attributeOf as m.id.toInt) → attributeOf bs m.id.toInt = m.initial S)
    (set : ∀ m ∈ (S.structs k).members, ¬ m.Unset S (attributeOf as m.id.toInt) →
      ¬ (True ∧ m.optional = true ∧ m.ty.Leaf ∧ Same (attributeOf as m.id.toInt) (m.initial S) ∧ attributeOf bs m.id.toInt = m.initial S) →
      Received S S True m.ty (attributeOf as m.id.toInt) (attributeOf bs m.id.toInt))
    (h : ∀ m ∈ (S.structs k).members, ∀ d d' fn sn, Fine S m.ty d → Received S S True m.ty d d' → wr fn sn m.ty d' = wr fn sn m.ty d) :
    genWriteMembers p S wr (S.structs k) bs (S.structs k).sorted = genWriteMembers p S wr (S.structs k) as (S.structs k).sorted := by
  refine genWriteMembers_congr fun m hm => ?_
  have hm := mem_sorted.mp hm
  by_cases hu : m.Unset S (attributeOf as m.id.toInt)
  · have he : attributeOf bs m.id.toInt = attributeOf as m.id.toInt := by
      rw [unset m hm hu]
      obtain ⟨hd, ⟨hn, h⟩ | ⟨j, hj, h⟩⟩ := hu
      · rw [h]; exact initial_nil hd (by cases ht : m.ty <;> rw [ht] at hn <;> first | rfl | exact hn.elim)
      · rw [h]; simp [Member.initial, hd, hj]
    simp only [genWriteMember, he]
  · by_cases hl : m.optional = true ∧ m.ty.Leaf ∧ Same (attributeOf as m.id.toInt) (m.initial S) ∧ attributeOf bs m.id.toInt = m.initial S
    · obtain ⟨l1, l2, l3, l4⟩ := hl
      by_cases he : attributeOf as m.id.toInt = m.initial S
      · simp only [genWriteMember, l4, he]
      · obtain ⟨w1, w2⟩ := unwritten_default (check m hm) l1 l2 (fine m hm hu) l3 he
        simp [genWriteMember, l4, w1, w2]
    · have hr := set m hm hu fun x => hl x.2
      simp only [genWriteMember, hr.written, h m hm _ _ _ _ (fine m hm hu) hr]

/-- A value that was received is written as the one that was sent. -/
theorem Received.forward (p : Proto π) : ∀ (fuel : Nat) {ty : Ty} {d d' : Dyn} (fn sn : Bytes), Fine S ty d → Received S S True ty d d' →
    genWriteVal p S fuel fn sn ty d' = genWriteVal p S fuel fn sn ty d
  | 0, _, _, _, _, _, _, _ => by simp only [genWriteVal]
  | fuel + 1, ty, d, d', fn, sn, hf, hr => by
    cases hr with
    | leaf _ _ he => rw [he trivial]
    | enum k v t => simp only [genWriteVal]
    | @struct k ptr q as bs ids new unset set =>
      generalize hx : (S.structs k).object ptr as = x at hf
      cases hf with
      | struct k' ptr' attrs' ids' check nonempty fine =>
        simp only [StructDef.object, Dyn.struct.injEq] at hx
        obtain ⟨-, -, -, -, -, rfl⟩ := hx
        simp only [StructDef.object, genWriteVal]
        rw [forward_members p check fine (fun m hm => unset m hm m hm rfl) (fun m hm => set m hm m hm rfl)
          fun m hm d d' fn sn hf hr => Received.forward p fuel fn sn hf hr]
    | list len h =>
      cases hf with
      | list _ _ _ _ he hl hfine =>
        simp only [genWriteVal, ← len]
        rw [genWriteElems_congr len fun i hi => Received.forward p fuel [] [] (hfine _ (getD_mem hi)) (h i hi)]
    | set len h =>
      cases hf with
      | set _ _ _ _ he hl hfine =>
        simp only [genWriteVal]
        rw [genWriteElems_congr len fun i hi => Received.forward p fuel [] [] (hfine _ (getD_mem hi)) (h i hi)]
    | map len hk hv =>
      cases hf with
      | map _ _ _ _ _ _ _ hkey _ _ _ h1 h2 =>
        obtain ⟨t1, t2, t3, t4⟩ := key_types hkey
        simp only [genWriteVal, iterated, t4, if_neg t1, t3, true_or, if_true]
        rw [genWriteEntries_congr len (fun i hi => Received.forward p fuel [] [] (h1 _ (getD_mem hi)) (hk i hi))
          fun i hi => Received.forward p fuel [] [] (h2 _ (getD_mem hi)) (hv i hi)]

/-- An object that was received is written as the one that was sent. -/
theorem Received.forward_struct (p : Proto π) (fuel : Nat) {k ptr q : Nat} {as bs : Attrs} (hf : Fine S (.struct k) ((S.structs k).object ptr as))
    (hr : Received S S True (.struct k) ((S.structs k).object ptr as) ((S.structs k).object q bs)) :
    genWrite p S fuel (S.structs k) bs = genWrite p S fuel (S.structs k) as := by
  generalize hx : (S.structs k).object ptr as = x at hf hr
  generalize hy : (S.structs k).object q bs = y at hr
  cases hr with
  | leaf ht => exact ht.elim
  | @struct _ _ _ _ _ ids new unset set =>
    simp only [StructDef.object, Dyn.struct.injEq] at hx hy
    obtain ⟨-, -, -, -, -, rfl⟩ := hx
    obtain ⟨-, -, -, -, -, rfl⟩ := hy
    generalize hz : (S.structs k).object _ _ = z at hf
    cases hf with
    | struct k' ptr' attrs' ids' check nonempty fine =>
      simp only [StructDef.object, Dyn.struct.injEq] at hz
      obtain ⟨-, -, -, -, -, rfl⟩ := hz
      simp only [genWrite]
      rw [forward_members p check fine (fun m hm => unset m hm m hm rfl) (fun m hm => set m hm m hm rfl)
        fun m hm d d' fn sn hf hr => Received.forward p fuel fn sn hf hr]

end Thrift
