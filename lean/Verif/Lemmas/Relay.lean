/- Objects that pass through a program of another version. -/
import Verif.Spec.Relay
import Verif.Lemmas.Forward

namespace Thrift

variable {S S' : Schema}

theorem getD_beyond {α : Type} {l : List α} {a : α} {i : Nat} (hi : ¬ i < l.length) : l.getD i a = a := by
  rw [List.getD_eq_getElem?_getD, List.getElem?_eq_none (by omega)]; rfl

/-- What was received is the same, if the version is. -/
theorem Received.same : ∀ {ty : Ty} {d d' : Dyn}, Fine S ty d → Received S S True ty d d' → Same d d' := by
  intro ty d d' hf hr
  induction hr with
  | leaf _ h => exact h
  | enum k v t =>
    cases hf
    exact Same.refl _
  | @struct k ptr q as bs ids new unset set ih =>
    generalize hx : (S.structs k).object ptr as = x at hf
    cases hf with
    | struct k' ptr' attrs' ids' check nonempty fine =>
      simp only [StructDef.object, Dyn.struct.injEq] at hx
      obtain ⟨-, -, -, -, -, rfl⟩ := hx
      refine Same.struct (ids'.trans ids.symm) fun i => ?_
      by_cases hi : i ∈ (S.structs k).members.map (·.id.toInt)
      · obtain ⟨m, hm, rfl⟩ := List.mem_map.mp hi
        by_cases hu : m.Unset S (attributeOf as m.id.toInt)
        · have he : attributeOf bs m.id.toInt = attributeOf as m.id.toInt := by
            rw [unset m hm m hm rfl hu]
            obtain ⟨hd, ⟨hn, h⟩ | ⟨j, hj, h⟩⟩ := hu
            · rw [h]; exact initial_nil hd (by cases ht : m.ty <;> rw [ht] at hn <;> first | rfl | exact hn.elim)
            · rw [h]; simp [Member.initial, hd, hj]
          rw [he]; exact Same.refl _
        · by_cases hl : m.optional = true ∧ m.ty.Leaf ∧ Same (attributeOf as m.id.toInt) (m.initial S) ∧ attributeOf bs m.id.toInt = m.initial S
          · rw [hl.2.2.2]; exact hl.2.2.1
          · exact ih m hm m hm rfl hu (fun x => hl x.2) (fine m hm hu)
      · rw [attributeOf_absent (by rw [ids']; exact hi), attributeOf_absent (by rw [ids]; exact hi)]
        exact Same.refl _
  | @list e p q t t' as bs len h ih =>
    cases hf with
    | list _ _ _ _ he hl hfine =>
      refine Same.list len fun i => ?_
      by_cases hi : i < as.length
      · exact ih i hi (hfine _ (getD_mem hi))
      · rw [getD_beyond hi, getD_beyond (len ▸ hi)]; exact Same.refl _
  | @set e p q t t' n as bs len h ih =>
    cases hf with
    | set _ _ _ _ he hl hfine =>
      refine Same.set len fun i => ?_
      by_cases hi : i < as.length
      · exact ih i hi (hfine _ (getD_mem hi))
      · rw [getD_beyond hi, getD_beyond (len ▸ hi)]; exact Same.refl _
  | @map k w p q kt vt vt' n ks vs ks' vs' as bs len hk hv ihk ihv =>
    cases hf with
    | map _ _ _ _ _ _ _ hkey _ _ _ h1 h2 =>
      refine Same.map len (fun i => ?_) fun i => ?_
      · by_cases hi : i < as.length
        · exact ihk i hi (h1 _ (getD_mem hi))
        · rw [getD_beyond hi, getD_beyond (len ▸ hi)]; exact Same.refl _
      · by_cases hi : i < as.length
        · exact ihv i hi (h2 _ (getD_mem hi))
        · rw [getD_beyond hi, getD_beyond (len ▸ hi)]; exact Same.refl _

theorem isEmpty_of_length {α : Type} : ∀ {as bs : List α}, as.length = bs.length → bs.isEmpty = as.isEmpty
  | [], [], _ => rfl
  | _ :: _, _ :: _, _ => rfl
  | [], _ :: _, h => by simp at h
  | _ :: _, [], h => by simp at h

theorem Received.key {k : Ty} {d d' : Dyn} (hk : k.Key) (h : Received S S' True k d d') : d' = d := by
  cases h with
  | leaf _ _ he => exact he trivial
  | _ => exact hk.elim

theorem Received.isEmpty {ty : Ty} {d d' : Dyn} (h : Received S S' True ty d d') : d'.isEmpty = d.isEmpty := by
  cases h with
  | leaf _ _ he => rw [he trivial]
  | enum => rfl
  | struct => rfl
  | list len => exact isEmpty_of_length len
  | set len => exact isEmpty_of_length len
  | map len => exact isEmpty_of_length len

theorem mem_getD {α : Type} {l : List α} {d : α} (a : α) (h : d ∈ l) : ∃ i, i < l.length ∧ l.getD i a = d := by
  obtain ⟨i, hi, rfl⟩ := List.mem_iff_getElem.mp h
  exact ⟨i, hi, by rw [List.getD_eq_getElem?_getD, List.getElem?_eq_getElem hi]; rfl⟩

/-- What can be sent is received as something that can be sent. -/
theorem Received.fine (hv : Versions S S') (hr : Relays S S') {ty : Ty} {d d' : Dyn} (h : Received S S' True ty d d') (hf : Fine S ty d) :
    Fine S' ty d' := by
  induction h with
  | leaf ht _ he =>
    rw [he trivial]
    cases hf <;> first | exact ht.elim | (constructor <;> assumption)
  | enum k v t =>
    cases hf with
    | enum _ _ h => exact Fine.enum k v h
  | @struct k ptr q as bs ids new unset set ih =>
    generalize hx : (S.structs k).object ptr as = x at hf
    cases hf with
    | struct k' ptr' attrs' ids' check nonempty fine =>
      simp only [StructDef.object, Dyn.struct.injEq] at hx
      obtain ⟨-, -, -, -, -, rfl⟩ := hx
      have cases' : ∀ m' ∈ (S'.structs k).members, attributeOf bs m'.id.toInt = m'.initial S' ∨
          ∃ m ∈ (S.structs k).members, m.id = m'.id ∧ ¬ m.Unset S (attributeOf as m.id.toInt) ∧
            Received S S' True m.ty (attributeOf as m.id.toInt) (attributeOf bs m'.id.toInt) ∧ Fine S' m'.ty (attributeOf bs m'.id.toInt) := by
        intro m' hm'
        by_cases hex : ∃ m ∈ (S.structs k).members, m.id = m'.id
        · obtain ⟨m, hm, he⟩ := hex
          by_cases hu : m.Unset S (attributeOf as m.id.toInt)
          · left; rw [← he]; exact unset m hm m' hm' he hu
          · by_cases hl : True ∧ m.optional = true ∧ m.ty.Leaf ∧ Same (attributeOf as m.id.toInt) (m.initial S) ∧
                attributeOf bs m.id.toInt = m'.initial S'
            · left; rw [← he]; exact hl.2.2.2.2
            · right
              refine ⟨m, hm, he, hu, ?_, ?_⟩
              · rw [← he]; exact set m hm m' hm' he hu hl
              · rw [← hv.types k m hm m' hm' he, ← he]; exact ih m hm m' hm' he hu hl (fine m hm hu)
        · left; exact new m' hm' fun m hm he => hex ⟨m, hm, he⟩
      refine Fine.struct k q bs ids (hr.check k) (fun m' hm' ho => ?_) (fun m' hm' hu => ?_)
      · rcases cases' m' hm' with h | ⟨m, hm, he, -, h, -⟩
        · rw [h]; exact hr.nonempty k m' hm' ho
        · rw [h.isEmpty]; exact nonempty m hm (hr.optional k m hm m' hm' he ho)
      · rcases cases' m' hm' with h | ⟨m, hm, he, -, -, h⟩
        · rw [h] at hu ⊢
          exact (hr.sendable k m' hm').resolve_left hu
        · exact h
  | list len h ih =>
    cases hf with
    | list _ _ _ _ he hl hfine =>
      refine Fine.list _ _ _ _ he (len ▸ hl) fun d hd => ?_
      obtain ⟨i, hi, rfl⟩ := mem_getD Dyn.nil hd
      exact ih i (len ▸ hi) (hfine _ (getD_mem (len ▸ hi)))
  | set len h ih =>
    cases hf with
    | set _ _ _ _ he hl hfine =>
      rw [show ((List.length _ : Nat) : Int) = (List.length _ : Nat) from congrArg _ len]
      refine Fine.set _ _ _ _ he (len ▸ hl) fun d hd => ?_
      obtain ⟨i, hi, rfl⟩ := mem_getD Dyn.nil hd
      exact ih i (len ▸ hi) (hfine _ (getD_mem (len ▸ hi)))
  | @map k w p q kt vt vt' n ks vs ks' vs' es es' len hk hv' ihk ihv =>
    cases hf with
    | map _ _ _ _ _ _ _ hkey htext hlen hd h1 h2 =>
      rw [show ((List.length _ : Nat) : Int) = (List.length _ : Nat) from congrArg _ len]
      refine Fine.map _ _ _ _ _ _ _ hkey ?_ (len ▸ hlen) ?_ (fun d hd => ?_) fun d hd => ?_
      · cases w with
        | enum j => exact hv.texts j htext
        | _ => trivial
      · have he : es'.map (·.1) = es.map (·.1) := by
          refine List.ext_getElem (by simp [len]) fun i h1 h2 => ?_
          have h3 : i < es.length := by simpa using h2
          have := (hk i h3).key hkey
          rw [List.getD_eq_getElem?_getD, List.getD_eq_getElem?_getD, List.getElem?_eq_getElem h3, List.getElem?_eq_getElem (len ▸ h3)] at this
          simpa using this
        have hd' := (List.pairwise_map (f := fun e : Dyn × Dyn => e.1) (R := fun a b => TMap.sameKey b a = false)).mpr hd
        rw [← he] at hd'
        exact List.pairwise_map.mp hd'
      · obtain ⟨i, hi, rfl⟩ := mem_getD (Dyn.nil, Dyn.nil) hd
        exact ihk i (len ▸ hi) (h1 _ (getD_mem (len ▸ hi)))
      · obtain ⟨i, hi, rfl⟩ := mem_getD (Dyn.nil, Dyn.nil) hd
        exact ihv i (len ▸ hi) (h2 _ (getD_mem (len ▸ hi)))

/-- A field that was set is set. -/
theorem Received.isSet {m' : Member} {ty : Ty} (ht : ty = m'.ty) {d d' : Dyn} (h : Received S S' True ty d d') (hf : Fine S ty d) :
    ¬ m'.Unset S' d' := by
  rintro ⟨-, ⟨hn, hu⟩ | ⟨j, hj, hu⟩⟩
  · subst hu
    rw [← ht] at hn
    generalize hx : Dyn.nil = x at h
    cases h with
    | leaf hl _ he => subst hx; rw [← he trivial] at hf; cases hf
    | enum => exact hn
    | _ => cases hx
  · rw [hj] at ht
    subst ht hu
    generalize hx : Dyn.enumer j _ _ = x at h
    cases h with
    | leaf hl _ he => exact hl
    | enum =>
      simp only [Dyn.enumer.injEq] at hx
      obtain ⟨-, rfl, -⟩ := hx
      cases hf with
      | enum _ _ h => exact absurd h.1 (by decide)

/-- What passes through a program of another version. -/
theorem Received.relayed (hS : S.Ok) (hv : Versions S S') (hr : Relays S S') {ty : Ty} {d d' : Dyn} (h : Received S S' True ty d d') :
    ∀ {d'' : Dyn}, Fine S ty d → Received S' S True ty d' d'' → Received S S True ty d d'' := by
  induction h with
  | leaf ht h he =>
    intro d'' hf h'
    cases h' with
    | leaf _ h2 he2 => rw [he trivial] at h2 he2; exact .leaf ht h2 he2
    | _ => exact ht.elim
  | enum k v t =>
    intro d'' hf h'
    cases h' with
    | leaf ht => exact ht.elim
    | enum => exact .enum k v t
  | @struct k ptr q as bs ids new unset set ih =>
    intro d'' hf h'
    generalize hx : (S.structs k).object ptr as = x at hf
    cases hf with
    | struct k' ptr' attrs' ids' check nonempty fine =>
      simp only [StructDef.object, Dyn.struct.injEq] at hx
      obtain ⟨-, -, -, -, -, rfl⟩ := hx
      generalize hy : (S'.structs k).object q bs = y at h'
      cases h' with
      | leaf ht => exact ht.elim
      | @struct _ _ q2 bs2 cs ids2 new2 unset2 set2 =>
        simp only [StructDef.object, Dyn.struct.injEq] at hy
        obtain ⟨-, -, -, -, -, rfl⟩ := hy
        have hinit : ∀ m ∈ (S.structs k).members, ∀ m' ∈ (S'.structs k).members, m.id = m'.id → m.ty.Leaf → m.initial S = m'.initial S' :=
          fun m hm m' hm' he hl => initial_leaf (hv.types k m hm m' hm' he) (hr.defaults k m hm m' hm' he) hl
        refine .struct ids2 (fun m hm hno => absurd rfl (hno m hm)) (fun m hm n hn he hu => ?_) (fun m hm n hn he hu hlx => ?_)
        · obtain ⟨m', hm', he'⟩ := hr.knows k m hm
          have hb := unset m hm m' hm' he' hu
          have hdf := hr.defaults k m hm m' hm' he'
          have hty := hv.types k m hm m' hm' he'
          have hu' : m'.Unset S' (attributeOf bs m'.id.toInt) := by
            rw [← he', hb]
            obtain ⟨hd, ⟨hn, h⟩ | ⟨j, hj, h⟩⟩ := hu
            · rw [hty] at hn
              refine ⟨hdf ▸ hd, .inl ⟨hn, initial_nil (hdf ▸ hd) (by cases ht : m'.ty <;> rw [ht] at hn <;> first | rfl | exact hn.elim)⟩⟩
            · rw [hty] at hj
              exact ⟨hdf ▸ hd, .inr ⟨j, hj, by simp [Member.initial, ← hdf, hd, hj]⟩⟩
          rw [he']
          exact unset2 m' hm' n hn (he'.symm.trans he) hu'
        · obtain ⟨m', hm', he'⟩ := hr.knows k m hm
          have hmn := member_unique (hS k) hm hn he
          have hty := hv.types k m hm m' hm' he'
          have he2 : m'.id = n.id := he'.symm.trans he
          by_cases hl : True ∧ m.optional = true ∧ m.ty.Leaf ∧ Same (attributeOf as m.id.toInt) (m.initial S) ∧
              attributeOf bs m.id.toInt = m'.initial S'
          · obtain ⟨-, l1, l2, l3, l4⟩ := hl
            refine absurd ⟨trivial, l1, l2, l3, ?_⟩ hlx
            by_cases hu2 : m'.Unset S' (attributeOf bs m'.id.toInt)
            · rw [he']; exact unset2 m' hm' n hn he2 hu2
            · by_cases hl2 : True ∧ m'.optional = true ∧ m'.ty.Leaf ∧ Same (attributeOf bs m'.id.toInt) (m'.initial S') ∧
                  attributeOf cs m'.id.toInt = n.initial S
              · rw [he']; exact hl2.2.2.2.2
              · have h3 := set2 m' hm' n hn he2 hu2 hl2
                rw [← he', l4, ← hty] at h3
                have h4 : attributeOf cs m.id.toInt = m'.initial S' := by
                  generalize attributeOf cs m.id.toInt = z at h3
                  generalize m'.initial S' = y at h3
                  revert h3 l2
                  generalize m.ty = t
                  intro l2 h3
                  cases h3 with
                  | leaf _ _ he => exact he trivial
                  | _ => exact l2.elim
                rw [h4, ← hinit m hm m' hm' he' l2, hmn]
          · have h1 := set m hm m' hm' he' hu hl
            have hf := fine m hm hu
            have hu2 : ¬ m'.Unset S' (attributeOf bs m'.id.toInt) := by rw [← he']; exact h1.isSet hty hf
            by_cases hl2 : True ∧ m'.optional = true ∧ m'.ty.Leaf ∧ Same (attributeOf bs m'.id.toInt) (m'.initial S') ∧
                attributeOf cs m'.id.toInt = n.initial S
            · obtain ⟨-, l1, l2, l3, l4⟩ := hl2
              rw [← hty] at l2
              rw [← he'] at l3 l4
              refine absurd ⟨trivial, hr.optional k m hm m' hm' he' l1, l2, ?_, l4⟩ hlx
              have h4 : attributeOf bs m.id.toInt = attributeOf as m.id.toInt := by
                revert h1 l2
                generalize m.ty = t
                intro h1 l2
                generalize attributeOf bs m.id.toInt = z at h1
                generalize attributeOf as m.id.toInt = y at h1
                cases h1 with
                | leaf _ _ he => exact he trivial
                | _ => exact l2.elim
              rw [h4, ← hinit m hm m' hm' he' l2] at l3
              exact l3
            · have h3 := set2 m' hm' n hn he2 hu2 hl2
              rw [← he', ← hty] at h3
              exact ih m hm m' hm' he' hu hl hf h3
  | @list e p q t t' as bs len h ih =>
    intro d'' hf h'
    cases hf with
    | list _ _ _ _ he hl hfine =>
      cases h' with
      | leaf ht => exact ht.elim
      | list len2 h2 => exact .list (len.trans len2) fun i hi => ih i hi (hfine _ (getD_mem hi)) (h2 i (len ▸ hi))
  | @set e p q t t' n as bs len h ih =>
    intro d'' hf h'
    cases hf with
    | set _ _ _ _ he hl hfine =>
      cases h' with
      | leaf ht => exact ht.elim
      | set len2 h2 => exact .set (len.trans len2) fun i hi => ih i hi (hfine _ (getD_mem hi)) (h2 i (len ▸ hi))
  | @map k w p q kt vt vt' n ks vs ks' vs' es es' len hk hv' ihk ihv =>
    intro d'' hf h'
    cases hf with
    | map _ _ _ _ _ _ _ hkey htext hlen hd h1 h2 =>
      cases h' with
      | leaf ht => exact ht.elim
      | map len2 hk2 hv2 =>
        exact .map (len.trans len2) (fun i hi => ihk i hi (h1 _ (getD_mem hi)) (hk2 i (len ▸ hi)))
          fun i hi => ihv i hi (h2 _ (getD_mem hi)) (hv2 i (len ▸ hi))

end Thrift
