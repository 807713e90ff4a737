import Verif.Spec.GenWire
import Verif.Lemmas.GenRoundTrip
/-!
# Generated writers send what the struct means
-/

namespace Thrift

variable {S : Schema}

theorem insertMember_sorted {m : Member} : ∀ {ms : List Member}, (∀ x ∈ ms, x.id ≠ m.id) →
    ms.Pairwise (fun a b => a.id.toInt < b.id.toInt) → (insertMember m ms).Pairwise fun a b => a.id.toInt < b.id.toInt
  | [], _, _ => by simp [insertMember]
  | n :: ns, h, hp => by
    rw [insertMember]
    rw [List.pairwise_cons] at hp
    split
    · rename_i hlt
      refine List.pairwise_cons.mpr ⟨fun x hx => ?_, List.pairwise_cons.mpr hp⟩
      rcases List.mem_cons.mp hx with rfl | hx
      · exact hlt
      · have := hp.1 x hx
        omega
    · rename_i hlt
      rw [List.pairwise_cons]
      refine ⟨fun x hx => ?_, insertMember_sorted (fun x hx => h x (List.mem_cons_of_mem _ hx)) hp.2⟩
      rcases mem_insertMember.mp hx with rfl | hx
      · have hne : n.id.toInt ≠ x.id.toInt := fun hc => h n List.mem_cons_self (toInt_inj hc)
        omega
      · exact hp.1 x hx

theorem sorted_increasing {sd : StructDef} (h : sd.members.Pairwise fun a b => a.id ≠ b.id) :
    sd.sorted.Pairwise fun a b => a.id.toInt < b.id.toInt := by
  have aux : ∀ ms : List Member, ms.Pairwise (fun a b => a.id ≠ b.id) →
      (ms.foldr insertMember []).Pairwise (fun a b => a.id.toInt < b.id.toInt) ∧ ∀ x, x ∈ ms.foldr insertMember [] → x ∈ ms := by
    intro ms
    induction ms with
    | nil => intro _; exact ⟨List.Pairwise.nil, fun x hx => hx⟩
    | cons m ms ih =>
      intro hp
      rw [List.pairwise_cons] at hp
      obtain ⟨h1, h2⟩ := ih hp.2
      refine ⟨insertMember_sorted (fun x hx => (hp.1 x (h2 x hx)).symm) h1, fun x hx => ?_⟩
      rcases mem_insertMember.mp hx with rfl | hx
      · exact List.mem_cons_self
      · exact List.mem_cons_of_mem _ (h2 x hx)
  exact (aux _ h).1

theorem flatMembers_mono {f g : Ty → Dyn → Option Val} (h : ∀ t d v, f t d = some v → g t d = some v) (attrs : List (Int × Dyn)) :
    ∀ (ms : List Member) (fs : Fields), flatMembers S f attrs ms = some fs → flatMembers S g attrs ms = some fs
  | [], _, hf => hf
  | m :: ms, fs, hf => by
    simp only [flatMembers] at hf ⊢
    by_cases hw : m.written S (attributeOf attrs m.id.toInt) = true
    · rw [if_pos hw] at hf ⊢
      split at hf
      · rename_i h1 h2
        rw [h _ _ _ h1, flatMembers_mono h attrs _ _ h2]
        exact hf
      · cases hf
    · rw [if_neg hw] at hf ⊢
      exact flatMembers_mono h attrs _ _ hf

theorem flatVals_mono {f g : Dyn → Option Val} (h : ∀ d v, f d = some v → g d = some v) :
    ∀ (ds : List Dyn) (vs : Vals), flatVals f ds = some vs → flatVals g ds = some vs
  | [], _, hf => hf
  | d :: ds, vs, hf => by
    simp only [flatVals] at hf ⊢
    split at hf
    · rename_i h1 h2
      rw [h _ _ h1, flatVals_mono h _ _ h2]
      exact hf
    · cases hf

theorem flatPairs_mono {f g f' g' : Dyn → Option Val} (h : ∀ d v, f d = some v → g d = some v)
    (h' : ∀ d v, f' d = some v → g' d = some v) :
    ∀ (ds : List (Dyn × Dyn)) (vs : Pairs), flatPairs f f' ds = some vs → flatPairs g g' ds = some vs
  | [], _, hf => hf
  | (_, _) :: ds, vs, hf => by
    simp only [flatPairs] at hf ⊢
    split at hf
    · rename_i h1 h2 h3
      rw [h _ _ h1, h' _ _ h2, flatPairs_mono h h' _ _ h3]
      exact hf
    · cases hf

/-- What a protocol without a name for BINARY can send, all can. -/
theorem flatVal_any : ∀ (fuel : Nat) (t : Ty) (d : Dyn) (v : Val), flatVal false S fuel t d = some v → flatVal true S fuel t d = some v := by
  intro fuel
  induction fuel with
  | zero => intro t d v h; cases h
  | succ n ih =>
    intro t d v h
    have hm := fun attrs ms fs => flatMembers_mono (S := S) (f := flatVal false S n) (g := flatVal true S n) ih attrs ms fs
    have hv := fun e ds vs => flatVals_mono (f := flatVal false S n e) (g := flatVal true S n e) (ih e) ds vs
    have hp := fun k v ds vs => flatPairs_mono (f := flatVal false S n k) (g := flatVal true S n k) (f' := flatVal false S n v)
      (g' := flatVal true S n v) (ih k) (ih v) ds vs
    cases t <;> cases d <;> try exact h
    · cases h
    · rename_i k _ ok nm _ _ attrs
      cases ok
      · cases h
      · simp only [flatVal] at h ⊢
        split at h
        · rename_i hn
          rw [if_pos hn]
          obtain ⟨fs, h1, h2⟩ := Option.map_eq_some_iff.1 h
          rw [hm _ _ _ h1, Option.map_some, h2]
        · cases h
    · simp only [flatVal] at h ⊢
      split at h
      · rw [if_pos (by rfl)]
        obtain ⟨fs, h1, h2⟩ := Option.map_eq_some_iff.1 h
        rw [hv _ _ _ h1, Option.map_some, h2]
      · cases h
    · simp only [flatVal] at h ⊢
      split at h
      · rename_i hl
        rw [if_pos ⟨by rfl, hl.2⟩]
        obtain ⟨fs, h1, h2⟩ := Option.map_eq_some_iff.1 h
        rw [hv _ _ _ h1, Option.map_some, h2]
      · cases h
    · simp only [flatVal] at h ⊢
      split at h
      · rename_i hl
        rw [if_pos ⟨by rfl, by rfl, hl.2.2⟩]
        split at h
        · split at h
          · rename_i he
            obtain ⟨fs, h1, h2⟩ := Option.map_eq_some_iff.1 h
            simp only [he, if_true, hp _ _ _ _ h1, Option.map_some, h2]
          · cases h
        · cases h
      · cases h

/-- The tree that a writer sends for `d`, once the fuel suffices. -/
def Flat (bin : Bool) (S : Schema) (ty : Ty) (d : Dyn) : Prop :=
  ∃ v N, (∀ fuel, N ≤ fuel → flatVal bin S fuel ty d = some v) ∧ v.WF ∧ Means S ty d v

theorem Flat.leaf {bin : Bool} {ty : Ty} {d : Dyn} {v : Val} (h1 : ∀ n, flatVal bin S (n + 1) ty d = some v) (h2 : v.WF)
    (h3 : Means S ty d v) : Flat bin S ty d :=
  ⟨v, 1, fun | 0, h => by omega | n + 1, _ => h1 n, h2, h3⟩

theorem means_type {ty : Ty} {d : Dyn} {v : Val} (h : Means S ty d v) : v.type = ty.wire := by
  cases h <;> rfl

theorem Vals.ofList_length : ∀ l : List Val, (Vals.ofList l).length = l.length
  | [] => rfl
  | _ :: l => by rw [Vals.ofList, Vals.length, Vals.ofList_length l, List.length_cons]

theorem Pairs.ofList_length : ∀ l : List (Val × Val), (Pairs.ofList l).length = l.length
  | [] => rfl
  | _ :: l => by rw [Pairs.ofList, Pairs.length, Pairs.ofList_length l, List.length_cons]

theorem flat_vals {bin : Bool} {e : Ty} : ∀ {ds : List Dyn}, (∀ d ∈ ds, Flat bin S e d) →
    ∃ (xs : List (Dyn × Val)) (N : Nat), xs.map (·.1) = ds ∧ (∀ x ∈ xs, Means S e x.1 x.2) ∧
      (∀ fuel, N ≤ fuel → flatVals (flatVal bin S fuel e) ds = some (Vals.ofList (xs.map (·.2)))) ∧
      (Vals.ofList (xs.map (·.2))).WF e.wire
  | [], _ => ⟨[], 0, rfl, fun _ h => (nomatch h), fun _ _ => rfl, trivial⟩
  | d :: ds, h => by
    obtain ⟨v, N, h1, h2, h3⟩ := h d List.mem_cons_self
    obtain ⟨xs, M, k1, k2, k3, k4⟩ := flat_vals (ds := ds) fun x hx => h x (List.mem_cons_of_mem _ hx)
    refine ⟨(d, v) :: xs, max N M, by rw [List.map_cons, k1], fun x hx => ?_, fun fuel hf => ?_, means_type h3, h2, k4⟩
    · rcases List.mem_cons.1 hx with rfl | hx
      · exact h3
      · exact k2 x hx
    · simp only [flatVals, h1 fuel (by omega), k3 fuel (by omega)]
      rfl

theorem flat_pairs {bin : Bool} {k v : Ty} : ∀ {ds : List (Dyn × Dyn)}, (∀ d ∈ ds, Flat bin S k d.1) → (∀ d ∈ ds, Flat bin S v d.2) →
    ∃ (xs : List ((Dyn × Val) × (Dyn × Val))) (N : Nat), xs.map (fun x => (x.1.1, x.2.1)) = ds ∧
      (∀ x ∈ xs, Means S k x.1.1 x.1.2) ∧ (∀ x ∈ xs, Means S v x.2.1 x.2.2) ∧
      (∀ fuel, N ≤ fuel → flatPairs (flatVal bin S fuel k) (flatVal bin S fuel v) ds =
        some (Pairs.ofList (xs.map fun x => (x.1.2, x.2.2)))) ∧
      (Pairs.ofList (xs.map fun x => (x.1.2, x.2.2))).WF k.wire v.wire
  | [], _, _ => ⟨[], 0, rfl, fun _ h => (nomatch h), fun _ h => (nomatch h), fun _ _ => rfl, trivial⟩
  | (dk, dv) :: ds, hk, hv => by
    obtain ⟨v1, N1, a1, a2, a3⟩ := hk _ List.mem_cons_self
    obtain ⟨v2, N2, b1, b2, b3⟩ := hv _ List.mem_cons_self
    obtain ⟨xs, M, k1, k2, k3, k4, k5⟩ := flat_pairs (ds := ds) (fun x hx => hk x (List.mem_cons_of_mem _ hx))
      fun x hx => hv x (List.mem_cons_of_mem _ hx)
    refine ⟨((dk, v1), (dv, v2)) :: xs, max (max N1 N2) M, by rw [List.map_cons, k1], fun x hx => ?_, fun x hx => ?_,
      fun fuel hf => ?_, means_type a3, means_type b3, a2, b2, k5⟩
    · rcases List.mem_cons.1 hx with rfl | hx
      · exact a3
      · exact k2 x hx
    · rcases List.mem_cons.1 hx with rfl | hx
      · exact b3
      · exact k3 x hx
    · simp only [flatPairs, a1 fuel (by omega), b1 fuel (by omega), k4 fuel (by omega)]
      rfl

theorem flat_members {bin : Bool} (attrs : List (Int × Dyn)) : ∀ (ms : List Member),
    ms.Pairwise (fun a b => a.id.toInt < b.id.toInt) →
    (∀ m ∈ ms, m.written S (attributeOf attrs m.id.toInt) = true → Flat bin S m.ty (attributeOf attrs m.id.toInt)) →
    ∃ (sent : List (Member × Val)) (N : Nat), sent.Pairwise (fun a b => a.1.id.toInt < b.1.id.toInt) ∧
      (∀ m, m ∈ sent.map (·.1) ↔ m ∈ ms ∧ m.written S (attributeOf attrs m.id.toInt) = true) ∧
      (∀ x ∈ sent, Means S x.1.ty (attributeOf attrs x.1.id.toInt) x.2) ∧
      (∀ fuel, N ≤ fuel → flatMembers S (flatVal bin S fuel) attrs ms = some (Fields.ofList (sent.map fun x => (x.1.id, x.2)))) ∧
      (Fields.ofList (sent.map fun x => (x.1.id, x.2))).WF
  | [], _, _ => ⟨[], 0, .nil, by simp, fun _ h => (nomatch h), fun _ _ => rfl, trivial⟩
  | m :: ms, hp, h => by
    rw [List.pairwise_cons] at hp
    obtain ⟨sent, M, k1, k2, k3, k4, k5⟩ := flat_members attrs ms hp.2 fun x hx => h x (List.mem_cons_of_mem _ hx)
    by_cases hw : m.written S (attributeOf attrs m.id.toInt) = true
    · obtain ⟨v, N, h1, h2, h3⟩ := h m List.mem_cons_self hw
      refine ⟨(m, v) :: sent, max N M, List.pairwise_cons.2 ⟨fun x hx => ?_, k1⟩, fun x => ?_, fun x hx => ?_, fun fuel hf => ?_, h2, k5⟩
      · exact hp.1 x.1 ((k2 x.1).1 (List.mem_map_of_mem hx)).1
      · rw [List.map_cons, List.mem_cons, List.mem_cons, k2]
        constructor
        · rintro (rfl | hx)
          · exact ⟨.inl rfl, hw⟩
          · exact ⟨.inr hx.1, hx.2⟩
        · rintro ⟨rfl | hx, hx2⟩
          · exact .inl rfl
          · exact .inr ⟨hx, hx2⟩
      · rcases List.mem_cons.1 hx with rfl | hx
        · exact h3
        · exact k3 x hx
      · simp only [flatMembers, hw, if_true, h1 fuel (by omega), k4 fuel (by omega)]
        rfl
    · refine ⟨sent, M, k1, fun x => ?_, k3, fun fuel hf => ?_, k5⟩
      · rw [k2, List.mem_cons]
        constructor
        · rintro ⟨hx, hx2⟩
          exact ⟨.inr hx, hx2⟩
        · rintro ⟨rfl | hx, hx2⟩
          · exact absurd hx2 hw
          · exact ⟨hx, hx2⟩
      · simp only [flatMembers, hw, k4 fuel hf]
        rfl

theorem enumUnset_toInt (v : I64) : v ≠ enumUnset ↔ v.toInt ≠ -2147483649 := by
  have : enumUnset.toInt = -2147483649 := by decide
  rw [← this, ne_eq, ne_eq, BitVec.toInt_inj]

/-- For values of the declared type `WriteField…` decides as it should. -/
theorem written_iff {m : Member} {d : Dyn} (h : m.Unset S d ∨ Typed S m.ty d) :
    m.written S d = true ↔ m.Sent S d := by
  rcases h with ⟨hd, ⟨hn, rfl⟩ | ⟨k, hk, rfl⟩⟩ | h
  · simp [Member.written, hn.can, Dyn.isNil, Member.Sent]
  · simp [Member.written, Member.Sent, Member.Assigned, hk, Ty.canBeNil, Ty.isEnum, Member.isSet]
    decide
  · cases hty : m.ty <;> rw [hty] at h <;> cases h <;>
      simp only [Member.written, Member.Sent, Member.Assigned, Member.isSet, hty, Ty.canBeNil, Ty.isEnum, Dyn.isNil]
    case enum h => simp [enumUnset_toInt]
    case double => cases m.optional <;> simp
    case struct => simp [StructDef.object]
    case binary => simp
    case list vs _ _ => cases m.optional <;> cases m.emptyDflt <;> cases vs <;> simp [Dyn.isEmpty]
    case set vs _ _ => cases m.optional <;> cases m.emptyDflt <;> cases vs <;> simp [Dyn.isEmpty]
    case map es _ _ _ => cases m.optional <;> cases m.emptyDflt <;> cases es <;> simp [Dyn.isEmpty]
    all_goals
      cases hi : m.initial S <;> cases m.optional <;> simp [Dyn.goEq]

theorem flat_struct {bin : Bool} {k ptr : Nat} {attrs : List (Int × Dyn)} (hsd : (S.structs k).members.Pairwise fun a b => a.id ≠ b.id)
    (ht : ∀ m ∈ (S.structs k).members, ¬ m.Unset S (attributeOf attrs m.id.toInt) → Typed S m.ty (attributeOf attrs m.id.toInt))
    (h : ∀ m ∈ (S.structs k).members, ¬ m.Unset S (attributeOf attrs m.id.toInt) → Flat bin S m.ty (attributeOf attrs m.id.toInt)) :
    ∃ fs N, (∀ fuel, N ≤ fuel → flatMembers S (flatVal bin S fuel) attrs (S.structs k).sorted = some fs) ∧ fs.WF ∧
      Means S (.struct k) ((S.structs k).object ptr attrs) (.struct fs) := by
  have hw : ∀ m ∈ (S.structs k).members, (m.written S (attributeOf attrs m.id.toInt) = true ↔ m.Sent S (attributeOf attrs m.id.toInt)) := by
    intro m hm
    by_cases hu : m.Unset S (attributeOf attrs m.id.toInt)
    · exact written_iff (.inl hu)
    · exact written_iff (.inr (ht m hm hu))
  obtain ⟨sent, N, k1, k2, k3, k4, k5⟩ := flat_members (bin := bin) attrs _ (sorted_increasing hsd) fun m hm hwr => by
    have hm := mem_sorted.1 hm
    refine h m hm fun hu => ?_
    have hs := (hw m hm).1 hwr
    rcases hu with ⟨_, ⟨_, hd⟩ | ⟨j, hj, hd⟩⟩
    · exact hs.1 hd
    · have := hs.2 (.inr ⟨j, hj⟩)
      rw [Member.Assigned, hj] at this
      exact this _ _ _ hd (by decide)
  refine ⟨_, N, k4, k5, Means.struct k ptr attrs sent k1 (fun m => ?_) k3⟩
  rw [k2, mem_sorted]
  exact and_congr_right fun hm => hw m hm

/-- What may be in the way of writing: maps with maps for keys, and `binary` for
protocols that cannot name it. -/
def Writable (bin : Bool) (t : Ty) : Prop := t.MapKeyFree ∧ (bin = true ∨ t.BinaryFree)

theorem header_of {bin : Bool} {t : Ty} (h : bin = true ∨ t.BinaryFree) : t.header bin = true := by
  rcases h with rfl | h
  · rfl
  · cases t <;> first | exact h.elim | simp [Ty.header, Ty.code, TT.BINARY, TT.BOOL, TT.BYTE, TT.I16, TT.I32, TT.I64, TT.DOUBLE, TT.STRING, TT.STRUCT, TT.LIST, TT.SET, TT.MAP]

theorem iterated_of {t : Ty} (h : ∀ a b, t ≠ .map a b) (es : List (Dyn × Dyn)) : iterated t.code es = some es := by
  cases t <;> first | exact absurd rfl (h _ _) | rfl

theorem Typed.flat {bin : Bool} (hS : S.Ok) (hw : ∀ k, ∀ m ∈ (S.structs k).members, Writable bin m.ty) {ty : Ty} {d : Dyn}
    (h : Typed S ty d) : Writable bin ty → Flat bin S ty d := by
  induction h with
  | bool b => exact fun _ => Flat.leaf (fun _ => rfl) trivial (.bool b)
  | byte b => exact fun _ => Flat.leaf (fun _ => rfl) trivial (.byte b)
  | i16 b => exact fun _ => Flat.leaf (fun _ => rfl) trivial (.i16 b)
  | i32 b => exact fun _ => Flat.leaf (fun _ => rfl) trivial (.i32 b)
  | i64 b => exact fun _ => Flat.leaf (fun _ => rfl) trivial (.i64 b)
  | double b => exact fun _ => Flat.leaf (fun _ => rfl) trivial (.double b)
  | string b h => exact fun _ => Flat.leaf (fun _ => rfl) h (.string b)
  | binary b h =>
    intro hb
    refine Flat.leaf (v := .str b) (fun _ => ?_) h (.binary b)
    rcases hb.2 with rfl | hb
    · rfl
    · exact hb.elim
  | enum k v h =>
    refine fun _ => Flat.leaf (v := .i32 (v.setWidth 32)) (fun _ => by simp [flatVal]) trivial (.enum k v _ _ ?_)
    rw [ofInt_toInt_setWidth 32 (by omega), BitVec.toInt_ofInt, Int.bmod_eq_of_le (by omega) (by omega)]
  | struct k ptr attrs ids ht ih =>
    intro _
    obtain ⟨fs, N, h1, h2, h3⟩ := flat_struct (bin := bin) (ptr := ptr) (hS k).ids ht fun m hm hu => ih m hm hu (hw k m hm)
    refine ⟨.struct fs, N + 1, fun | 0, h => by omega | n + 1, h => ?_, h2, h3⟩
    simp only [flatVal, StructDef.object, if_true, h1 n (by omega), Option.map_some]
  | list e ptr vs len _ ih =>
    intro hb
    have he : Writable bin e := hb
    obtain ⟨xs, N, k1, k2, k3, k4⟩ := flat_vals fun d hd => ih d hd he
    have hl : xs.length = vs.length := by rw [← k1, List.length_map]
    refine ⟨.list e.wire (Vals.ofList (xs.map (·.2))), N + 1, fun | 0, h => by omega | n + 1, h => ?_,
      ⟨wire_isWire e, by rw [Vals.ofList_length, List.length_map]; omega, k4⟩, k1 ▸ Means.list e ptr e.code xs k2⟩
    simp only [flatVal, header_of he.2, if_true, k3 n (by omega), Option.map_some]
  | set e ptr vs len _ ih =>
    intro hb
    have he : Writable bin e := hb
    obtain ⟨xs, N, k1, k2, k3, k4⟩ := flat_vals fun d hd => ih d hd he
    have hl : xs.length = vs.length := by rw [← k1, List.length_map]
    refine ⟨.set e.wire (Vals.ofList (xs.map (·.2))), N + 1, fun | 0, h => by omega | n + 1, h => ?_,
      ⟨wire_isWire e, by rw [Vals.ofList_length, List.length_map]; omega, k4⟩, ?_⟩
    · simp only [flatVal, header_of he.2, true_and, if_true, k3 n (by omega), Option.map_some]
    · rw [← hl, ← k1]
      exact Means.set e ptr e.code xs k2
  | map k v ptr ks vs es len _ _ ih1 ih2 =>
    intro hb
    have hk : Writable bin k := ⟨hb.1.2.1, hb.2.imp id And.left⟩
    have hv : Writable bin v := ⟨hb.1.2.2, hb.2.imp id And.right⟩
    obtain ⟨xs, N, k1, k2, k3, k4, k5⟩ := flat_pairs (fun d hd => ih1 d hd hk) fun d hd => ih2 d hd hv
    have hl : xs.length = es.length := by rw [← k1, List.length_map]
    refine ⟨.map k.wire v.wire (Pairs.ofList (xs.map fun x => (x.1.2, x.2.2))), N + 1, fun | 0, h => by omega | n + 1, h => ?_,
      ⟨wire_isWire k, wire_isWire v, by rw [Pairs.ofList_length, List.length_map]; omega, k5⟩, ?_⟩
    · simp only [flatVal, header_of hk.2, header_of hv.2, true_and, if_true, iterated_of hb.1.1, k4 n (by omega), Option.map_some]
    · rw [← hl, ← k1]
      exact Means.map k v ptr k.code v.code ks vs xs k2 k3

end Thrift
