import Verif.Lemmas.Call
/-!
# Arguments and results on the wire
-/

namespace Thrift

variable {S : Schema} {L : FloatLib} {mem : List Nat → Nat}

/-! ## The field that is written for a result -/

def Member.isCase (m : Member) : Bool := m.ty.canBeNil && m.id ≠ 0

def Picked (attrs : Attrs) (ms : List Member) : Option Member → Prop
  | some m => m ∈ ms ∧ (m.isCase = true ∧ (attributeOf attrs m.id.toInt).isNil = false ∨
      m.isCase = false ∧ ∀ n ∈ ms, n.isCase = true → (attributeOf attrs n.id.toInt).isNil = true)
  | none => ∀ n ∈ ms, n.isCase = true ∧ (attributeOf attrs n.id.toInt).isNil = true

theorem pickResult_cons (attrs : Attrs) (m : Member) (ms : List Member) : pickResult attrs (m :: ms) =
    if m.isCase then if (attributeOf attrs m.id.toInt).isNil then pickResult attrs ms else some m
    else match pickResult attrs ms with
      | some n => if n.isCase then some n else some m
      | none => some m := rfl

theorem pickResult_spec (attrs : Attrs) : ∀ ms : List Member, Picked attrs ms (pickResult attrs ms)
  | [] => by intro n hn; cases hn
  | m :: ms => by
    have ih := pickResult_spec attrs ms
    rw [pickResult_cons]
    generalize pickResult attrs ms = x at ih
    by_cases hc : m.isCase = true
    · rw [if_pos hc]
      by_cases hn : (attributeOf attrs m.id.toInt).isNil = true
      · rw [if_pos hn]
        cases x with
        | none =>
          intro n hm
          rcases List.mem_cons.mp hm with rfl | hm
          · exact ⟨hc, hn⟩
          · exact ih n hm
        | some x =>
          obtain ⟨h1, h2⟩ := ih
          refine ⟨List.mem_cons_of_mem _ h1, h2.imp id fun h => ⟨h.1, fun n hm => ?_⟩⟩
          rcases List.mem_cons.mp hm with rfl | hm
          · exact fun _ => hn
          · exact h.2 n hm
      · rw [if_neg hn]
        exact ⟨List.mem_cons_self, .inl ⟨hc, by simpa using hn⟩⟩
    · rw [if_neg hc]
      have hc : m.isCase = false := by simpa using hc
      cases x with
      | none =>
        refine ⟨List.mem_cons_self, .inr ⟨hc, fun n hm hcn => ?_⟩⟩
        rcases List.mem_cons.mp hm with rfl | hm
        · rw [hc] at hcn; cases hcn
        · exact (ih n hm).2
      | some x =>
        obtain ⟨h1, h2⟩ := ih
        by_cases hx : x.isCase = true
        · simp only [hx, if_true]
          refine ⟨List.mem_cons_of_mem _ h1, .inl ?_⟩
          rcases h2 with h2 | h2
          · exact h2
          · rw [hx] at h2; cases h2.1
        · simp only [hx, Bool.false_eq_true, if_false]
          refine ⟨List.mem_cons_self, .inr ⟨hc, fun n hm hcn => ?_⟩⟩
          rcases List.mem_cons.mp hm with rfl | hm
          · rw [hc] at hcn; cases hcn
          · rcases h2 with h2 | h2
            · rw [h2.1] at hx; exact absurd rfl hx
            · exact h2.2 n hm hcn

theorem sim_result {T : Transport σ} {p : Proto π} {bin : Bool} (hB : Blind T p bin) (fuel : Nat) (sd : StructDef) (attrs : Attrs) (fs : Fields)
    (h : flatMembers S (flatVal bin S fuel) attrs (pickResult attrs sd.sorted.reverse).toList = some fs) :
    Sim T (writeVal p (.struct fs)) (genWriteResult p S fuel sd attrs) := by
  simp only [genWriteResult, genWriteBody, writeVal]
  refine Sim.seq ((hB.struct _).wrap _) (Sim.seq ?_ (Sim.seq ((Sim.refl _).wrap _) ((Sim.refl _).wrap _)))
  have hs := sim_members hB (fun t d v h => ⟨flatVal_type h, flatVal_header h⟩) (flatVal_bool fuel) (sim_val hB fuel) sd attrs h
  revert hs
  cases pickResult attrs sd.sorted.reverse with
  | none => exact id
  | some m =>
    intro hs s t s' t' hr
    have := hs s t s' t' hr
    simp only [Option.toList_some, genWriteMembers] at this
    obtain ⟨s₁, t₁, h1, h2⟩ := seq_inv this
    simp only [P.run_pure, Prod.mk.injEq, Res.ok.injEq, true_and] at h2
    obtain ⟨rfl, rfl⟩ := h2
    exact h1

/-! ## The trees of arguments and results -/

theorem Same.moved {sd : StructDef} {p q p' q' : Nat} {as bs : Attrs} (h : Same (sd.object p as) (sd.object q bs)) :
    Same (sd.object p' as) (sd.object q' bs) := by
  generalize hx : sd.object p as = x at h
  generalize hy : sd.object q bs = y at h
  cases h with
  | refl =>
    rw [← hy] at hx
    simp only [StructDef.object, Dyn.struct.injEq] at hx
    obtain ⟨-, -, -, -, -, rfl⟩ := hx
    exact Same.struct rfl fun _ => Same.refl _
  | struct ids h =>
    simp only [StructDef.object, Dyn.struct.injEq] at hx hy
    obtain ⟨-, -, -, -, -, rfl⟩ := hx
    obtain ⟨-, -, -, -, -, rfl⟩ := hy
    exact Same.struct ids h
  | float | list | set | map => simp [StructDef.object] at hx

/-- Inversion for objects. -/
theorem Fine.struct_inv {k ptr : Nat} {attrs : Attrs} (hf : Fine S (.struct k) ((S.structs k).object ptr attrs)) :
    attrs.map (·.1) = (S.structs k).members.map (·.id.toInt) ∧
    (∀ m ∈ (S.structs k).members, m.ty = .double → m.initial S = .float64 m.check) ∧
    (∀ m ∈ (S.structs k).members, m.optional = true → (attributeOf attrs m.id.toInt).isEmpty = false) ∧
    ∀ m ∈ (S.structs k).members, ¬ m.Unset S (attributeOf attrs m.id.toInt) → Fine S m.ty (attributeOf attrs m.id.toInt) := by
  generalize hd : (S.structs k).object ptr attrs = d at hf
  cases hf with
  | struct k' ptr' attrs' ids check nonempty hfine =>
    simp only [StructDef.object, Dyn.struct.injEq] at hd
    obtain ⟨rfl, -, -, -, -, rfl⟩ := hd
    exact ⟨ids, check, nonempty, hfine⟩

/-- The tree of an arguments object and what the reader makes of it. -/
theorem args_tree (hS : S.Ok) {k ptr : Nat} {attrs : Attrs} (hf : Fine S (.struct k) ((S.structs k).object ptr attrs)) :
    ∃ fs N as', (∀ fuel, N ≤ fuel → flatMembers S (flatVal true S fuel) attrs (S.structs k).sorted = some fs) ∧ fs.WF ∧
      fs.Conforms S (S.structs k) ∧ buildFields S L mem fs [] (S.structs k) ((S.structs k).fresh S) = .ok as' ∧
      SameAttrs (S.structs k) attrs as' := by
  obtain ⟨ids, check, nonempty, hfine⟩ := hf.struct_inv
  obtain ⟨fs, N, h1, h2, h3, h4⟩ := good_struct (L := L) (mem := mem) (ptr := ptr) (hS k) ids check nonempty hfine
    fun m hm hu => (hfine m hm hu).good hS
  obtain ⟨as', hb, hs⟩ := h4 []
  exact ⟨fs, N, as', h1, h2, h3, hb, hs.moved⟩

theorem initial_nil {m : Member} (h : m.dflt = none) (hc : m.ty.canBeNil = true) : m.initial S = .nil := by
  simp only [Member.initial, h]
  cases ht : m.ty <;> rw [ht] at hc <;> first | rfl | cases hc

theorem isNil_eq {d : Dyn} (h : d.isNil = true) : d = .nil := by cases d <;> first | rfl | cases h

/-- The tree of a result object and what the reader makes of it. -/
theorem result_tree (hS : S.Ok) {k ptr : Nat} {r : Attrs} (hf : Fine S (.struct k) ((S.structs k).object ptr r))
    (hd : ResultDef (S.structs k)) (ho : OneOutcome S (S.structs k) r) :
    ∃ fs N r', (∀ fuel, N ≤ fuel → flatMembers S (flatVal true S fuel) r (pickResult r (S.structs k).sorted.reverse).toList = some fs) ∧
      fs.WF ∧ fs.Conforms S (S.structs k) ∧ buildFields S L mem fs [] (S.structs k) ((S.structs k).fresh S) = .ok r' ∧
      SameAttrs (S.structs k) r r' := by
  obtain ⟨ids, check, nonempty, hfine⟩ := hf.struct_inv
  have hmem : ∀ m ∈ (pickResult r (S.structs k).sorted.reverse).toList, m ∈ (S.structs k).members := by
    have := pickResult_spec r (S.structs k).sorted.reverse
    revert this
    cases pickResult r (S.structs k).sorted.reverse with
    | none => intro _ m hm; cases hm
    | some x =>
      rintro ⟨h, -⟩ m hm
      rw [Option.toList_some, List.mem_singleton] at hm
      rw [hm]; exact mem_sorted.mp (List.mem_reverse.mp h)
  have hun : ∀ m ∈ (S.structs k).members, m.written S (attributeOf r m.id.toInt) = true →
      ¬ m.Unset S (attributeOf r m.id.toInt) := by
    rintro m _ hw ⟨_, h⟩
    rcases h with ⟨hn, hd⟩ | ⟨j, hj, hd⟩
    · rw [hd] at hw; simp [Member.written, hn.can, Dyn.isNil] at hw
    · rw [hd] at hw; simp [Member.written, hj, Ty.canBeNil, Ty.isEnum, Member.isSet] at hw
  -- the fields that are not written hold their initial values
  have hrest : ∀ m ∈ (S.structs k).members, m ∉ (pickResult r (S.structs k).sorted.reverse).toList →
      attributeOf r m.id.toInt = m.initial S := by
    intro m hm hnot
    have hrev : ∀ n, n ∈ (S.structs k).sorted.reverse ↔ n ∈ (S.structs k).members := fun n => by
      rw [List.mem_reverse, mem_sorted]
    have hcase : ∀ n ∈ (S.structs k).members, n.id ≠ 0 → n.isCase = true := by
      intro n hn h0
      obtain ⟨j, hj⟩ := hd.exceptions n hn h0
      simp only [Member.isCase, hj, Ty.canBeNil, Bool.true_and]; exact decide_eq_true h0
    have hnil : ∀ n ∈ (S.structs k).members, n.isCase = true → (attributeOf r n.id.toInt).isNil = true →
        attributeOf r n.id.toInt = n.initial S := by
      intro n hn hc hi
      simp only [Member.isCase, Bool.and_eq_true] at hc
      rw [initial_nil (hd.plain n hn) hc.1, isNil_eq hi]
    have := pickResult_spec r (S.structs k).sorted.reverse
    revert this hnot
    cases pickResult r (S.structs k).sorted.reverse with
    | none =>
      intro _ h
      exact hnil m hm (h m ((hrev m).mpr hm)).1 (h m ((hrev m).mpr hm)).2
    | some x =>
      rintro hnot ⟨h1, h2⟩
      have hx := (hrev x).mp h1
      have hne : m.id ≠ x.id := fun h => hnot (by rw [member_unique (hS k) hm hx h]; simp)
      rcases h2 with ⟨hc, hi⟩ | ⟨hc, hi⟩
      · rcases ho m hm x hx hne with h | h
        · exact h
        · simp only [Member.isCase, Bool.and_eq_true] at hc
          rw [h, initial_nil (hd.plain x hx) hc.1] at hi
          cases hi
      · by_cases h0 : x.id = 0
        · have hc := hcase m hm (fun h => hne (h.trans h0.symm))
          exact hnil m hm hc (hi m ((hrev m).mpr hm) hc)
        · rw [hcase x hx h0] at hc; cases hc
  obtain ⟨fs, N, h1, h2, h3, h4⟩ := good_members (L := L) (mem := mem) (hS k) r _ hmem
    (by cases pickResult r (S.structs k).sorted.reverse <;> simp)
    (fun m hm hw => (hfine m (hmem m hm) (hun m (hmem m hm) hw)).good hS)
  obtain ⟨r', b1, b2, b3, b4⟩ := h4 [] _ (fresh_ids _)
  refine ⟨fs, N, r', h1, h2, h3, b1, Same.struct (ids.trans (b2.trans (fresh_ids _)).symm) fun i => ?_⟩
  by_cases hi : i ∈ (S.structs k).members.map (·.id.toInt)
  · obtain ⟨m, hm, rfl⟩ := List.mem_map.mp hi
    by_cases hp : m ∈ (pickResult r (S.structs k).sorted.reverse).toList
    · by_cases hw : m.written S (attributeOf r m.id.toInt) = true
      · exact b4 m hp hw
      · rw [b3 _ fun x hx hxw hc => ?_, attributeOf_fresh (hS k) hm]
        · refine unwritten_same (check m hm) (nonempty m hm) ?_ hw
          by_cases hu : m.Unset S (attributeOf r m.id.toInt)
          · exact .inl hu
          · exact .inr (hfine m hm hu)
        · rw [member_unique (hS k) (hmem x hx) hm (toInt_inj hc)] at hxw
          exact hw hxw
    · rw [b3 _ fun x hx _ hc => ?_, attributeOf_fresh (hS k) hm, hrest m hm hp]
      · exact Same.refl _
      · exact hp (member_unique (hS k) (hmem x hx) hm (toInt_inj hc) ▸ hx)
  · rw [attributeOf_absent (by rwa [ids]), attributeOf_absent (by rwa [b2, fresh_ids])]
    exact Same.refl _

end Thrift
