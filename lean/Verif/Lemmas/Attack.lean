import Verif.Lemmas.ReadTotal
import Verif.Lemmas.GenRead
/-!
# Bytes that make generated readers panic
-/

namespace Thrift

/-- On these bytes the program panics. -/
def Dies (m : P π α) (s : π) (bs : Bytes) : Prop := ∀ out, ∃ t, m.run duplex s (bs, out) = (.panic, t)

namespace Dies
theorem now {m : P π α} {f : α → P π β} {s : π} {bs : Bytes} (h : Dies m s bs) : Dies (m >>= f) s bs := by
  intro out
  obtain ⟨t, h⟩ := h out
  exact ⟨t, by rw [P.run_bind, h, andThen_panic]⟩

theorem later {m : P π α} {f : α → P π β} {s s' : π} {a b : Bytes} {x : α} (h : Runs m s s' a x) (hf : Dies (f x) s' b) :
    Dies (m >>= f) s (a ++ b) := by
  intro out
  obtain ⟨t, hf⟩ := hf out
  exact ⟨t, by rw [P.run_bind, h, andThen_ok, hf]⟩

theorem else_ {c : Prop} [Decidable c] {a b : P π α} {s : π} {bs : Bytes} (hc : ¬ c) (h : Dies b s bs) : Dies (if c then a else b) s bs := by
  rw [if_neg hc]; exact h

theorem panic {s : π} {bs : Bytes} : Dies (P.panic : P π α) s bs := fun out => ⟨(bs, out), rfl⟩

theorem input {ι ω η α : Type} {m : P ι α} {i : ι} {o : ω} {h : η} {bs : Bytes} (hm : Dies m i bs) :
    Dies (P.input m : P (Server ι ω η) α) ⟨i, o, h⟩ bs := by
  intro out
  obtain ⟨t, hm⟩ := hm out
  exact ⟨t, by rw [P.run_input, hm]; rfl⟩
end Dies

theorem coerce_unknown (L : FloatLib) (data : Dyn) : coerceData L 5 data = .panic := by
  by_cases h : data.isNil = true
  · unfold coerceData
    rw [if_pos h]; rfl
  · unfold coerceData
    rw [if_neg h]; rfl

namespace Bin
open BinaryProtocol
variable {S : Schema} {L : FloatLib} {mem : List Nat → Nat} {msd : Int}

theorem reads_zeros (n : Nat) (path : List Nat) (fn sn : Bytes) (ty : Ty) (i : Bin) (hi : i.checkReadLength = false) :
    ∃ d, Reads (genReadVal binary S L mem msd (n + 2) path fn sn ty) i i ty.zeros d := by
  cases ty with
  | bool => exact ⟨.bool false, Runs.bind' (reads_bool false i hi) (Runs.pure _ _)⟩
  | byte => exact ⟨.byte 0, Runs.bind' (reads_byte 0 i hi) (Runs.pure _ _)⟩
  | i16 => exact ⟨.int16 0, Runs.bind' (reads_i16 0 i hi) (Runs.pure _ _)⟩
  | i32 => exact ⟨.int32 0, Runs.bind' (reads_i32 0 i hi) (Runs.pure _ _)⟩
  | i64 => exact ⟨.int64 0, Runs.bind' (reads_i64 0 i hi) (Runs.pure _ _)⟩
  | double => exact ⟨.float64 0, Runs.bind' (reads_double 0 i hi) (Runs.pure _ _)⟩
  | string => exact ⟨.string [], Runs.bind' (reads_string [] (by decide) i hi) (Runs.pure _ _)⟩
  | binary => exact ⟨.bytes [], Runs.bind' (reads_binary [] (by decide) i hi) (Runs.pure _ _)⟩
  | enum k => exact ⟨_, Runs.bind' (reads_i32 0 i hi) (Runs.pure _ _)⟩
  | list e => exact ⟨_, Runs.bind' (reads_listBegin 0 0 (by decide) i hi) (Runs.pure _ _)⟩
  | set e => exact ⟨_, Runs.bind' (reads_listBegin 0 0 (by decide) i hi) (Runs.pure _ _)⟩
  | map k v => exact ⟨_, Runs.bind' (reads_mapBegin 0 0 0 (by decide) i hi) (Runs.pure _ _)⟩
  | struct k =>
    refine ⟨(S.structs k).object (mem path) ((S.structs k).fresh S), ?_⟩
    refine Runs.bind' (r := ((S.structs k).fresh S, none)) ?_ (Runs.pure _ _)
    refine Runs.bind (a := []) (b := [0]) (s' := i) (r := ([], none)) (Runs.pure _ _) ?_
    refine Runs.bind' (r := ((S.structs k).fresh S, none)) (Runs.bind' (reads_fieldStop i hi) ?_) (Runs.pure _ _)
    intro rest out
    simp only [Option.isSome_none, Bool.false_eq_true, if_false]
    rw [resolved_stop _ _ _ _ rfl]
    rfl

theorem negative (i : Bin) (hi : i.checkReadLength = false) : Dies binary.readBinary i [255, 255, 255, 255] := by
  refine Dies.later (b := []) (reads_i32 (-1) i hi) ?_
  refine Dies.else_ (by simp) ?_
  refine Dies.later (a := []) (b := []) (s' := i) (x := none) (fun rest out => run_check _ i hi duplex _) ?_
  refine Dies.else_ (by simp) ?_
  intro out
  rw [if_pos (by decide)]
  exact ⟨_, rfl⟩

theorem dies_val (n : Nat) (path : List Nat) (fn sn : Bytes) (ty : Ty) (i : Bin) (hi : i.checkReadLength = false) {bs : Bytes}
    (h : ty.poison = some bs) : Dies (genReadVal binary S L mem msd (n + 3) path fn sn ty) i bs := by
  cases ty with
  | binary => cases h; exact Dies.now (negative i hi)
  | list e =>
    cases h
    obtain ⟨d, hd⟩ := reads_zeros (S := S) (L := L) (mem := mem) (msd := msd) n (0 :: path) [] [] e i hi
    refine Dies.later (reads_listBegin 5 1 (by decide) i hi) (Dies.else_ (by simp) (Dies.now ?_))
    rw [← List.append_nil e.zeros]
    refine Dies.later hd (Dies.else_ (by simp) (Dies.now ?_))
    intro out
    rw [show (TList.new 5).push L d = .panic by
      show (coerceData L 5 d >>= _) = _
      rw [coerce_unknown]; rfl]
    exact ⟨_, rfl⟩
  | set e =>
    cases h
    obtain ⟨d, hd⟩ := reads_zeros (S := S) (L := L) (mem := mem) (msd := msd) n (0 :: path) [] [] e i hi
    refine Dies.later (reads_listBegin 5 1 (by decide) i hi) (Dies.else_ (by simp) (Dies.now ?_))
    rw [← List.append_nil e.zeros]
    refine Dies.later hd (Dies.else_ (by simp) (Dies.now ?_))
    intro out
    rw [show (TSet.new 5 (1 : Nat)).add L d = .panic by
      show (coerceData L 5 d >>= _) = _
      rw [coerce_unknown]; rfl]
    exact ⟨_, rfl⟩
  | map k v =>
    cases h
    obtain ⟨d, hd⟩ := reads_zeros (S := S) (L := L) (mem := mem) (msd := msd) n (0 :: path) [] [] k i hi
    obtain ⟨d', hd'⟩ := reads_zeros (S := S) (L := L) (mem := mem) (msd := msd) n (1 :: path) [] [] v i hi
    refine Dies.later (reads_mapBegin 5 5 1 (by decide) i hi) (Dies.else_ (by simp) (Dies.now ?_))
    refine Dies.later hd (Dies.else_ (by simp) ?_)
    rw [← List.append_nil v.zeros]
    refine Dies.later hd' (Dies.else_ (by simp) (Dies.now ?_))
    intro out
    rw [show (TMap.new 5 5 (1 : Nat)).set L d d' = .panic by
      show (coerceData L 5 d >>= _) = _
      rw [coerce_unknown]; rfl]
    exact ⟨_, rfl⟩
  | _ => cases h

theorem dies_fields (hS : S.Ok) (k : Nat) (m : Member) (hm : m ∈ (S.structs k).members) (bs : Bytes) (i : Bin)
    (hi : i.checkReadLength = false) {rd : Bytes → Bytes → Member → P Bin (Dyn × GoErr)} {sk : TType → P Bin GoErr}
    (h : ∀ fn sn, Dies (rd fn sn m) i bs) (n : Nat) (attrs : Attrs) :
    Dies (genReadFields binary rd sk (S.structs k) (n + 1) attrs) i ([m.ty.wire] ++ be 2 m.id.toNat ++ bs) := by
  have hw : m.ty.wire ≠ TT.STOP ∧ m.ty.wire ≠ TT.GENERIC := by cases m.ty <;> exact ⟨(nomatch ·), (nomatch ·)⟩
  obtain ⟨name, id', hr, hf⟩ := find_resolved (hS k) hw.2 m.id (fun hlt => absurd ((hS k).low m hm) (by omega))
  have hby : (S.structs k).byId m.id = some m := by
    unfold StructDef.byId
    have hids := (hS k).ids
    clear hf hr hS
    generalize (S.structs k).members = l at hm hids
    induction l with
    | nil => cases hm
    | cons x l ih =>
      rw [List.find?_cons]
      rw [List.pairwise_cons] at hids
      rcases List.mem_cons.1 hm with rfl | hm
      · simp
      · have := hids.1 m hm
        simp only [show decide (m.id = x.id) = false by simpa using fun h => this h.symm]
        exact ih hm hids.2
  unfold genReadFields
  refine Dies.later (reads_fieldBegin _ hw.1 m.id i hi) ?_
  simp only [hr, Option.isSome_none, Bool.false_eq_true, if_false, hw.1]
  refine Dies.now ?_
  unfold genReadMember
  rw [hf, hby]
  simp only [if_true]
  exact Dies.now (h _ _)

theorem dies_struct (hS : S.Ok) {k : Nat} {bs : Bytes} (h : Poisons S k bs) (i : Bin) (hi : i.checkReadLength = false) :
    ∃ N, ∀ n, N ≤ n → ∀ path attrs, Dies (genReadInto binary S L mem msd n path (S.structs k) attrs) i bs := by
  induction h with
  | here k m bs hm hp =>
    refine ⟨3, fun n hn path attrs => ?_⟩
    obtain ⟨n, rfl⟩ : ∃ n', n = n' + 3 := ⟨n - 3, by omega⟩
    refine Dies.later (a := []) (s' := i) (x := ([], none)) (Runs.pure _ _) (Dies.else_ (by simp) (Dies.now ?_))
    exact dies_fields hS k m hm bs i hi (fun fn sn => dies_val n _ _ _ _ i hi hp) _ _
  | inside k m j bs hm hj _ ih =>
    obtain ⟨N, ih⟩ := ih
    refine ⟨N + 1, fun n hn path attrs => ?_⟩
    obtain ⟨n, rfl⟩ : ∃ n', n = n' + 1 := ⟨n - 1, by omega⟩
    refine Dies.later (a := []) (s' := i) (x := ([], none)) (Runs.pure _ _) (Dies.else_ (by simp) (Dies.now ?_))
    refine dies_fields hS k m hm bs i hi (fun fn sn => ?_) _ _
    rw [hj]
    exact Dies.now (ih n (by omega) _ _)
end Bin

/-- Some bytes poison each struct that contains `binary` or a container. -/
theorem exists_poison (S : Schema) (k : Nat) (h : ¬ S.Direct k) : ∃ bs, Poisons S k bs := by
  apply Classical.byContradiction
  intro hn
  refine h ⟨fun j => ¬ ∃ bs, Poisons S j bs, hn, fun j hj m hm => ?_⟩
  cases ht : m.ty with
  | binary => exact hj ⟨_, .here j m _ hm (by rw [ht]; rfl)⟩
  | list e => exact hj ⟨_, .here j m _ hm (by rw [ht]; rfl)⟩
  | set e => exact hj ⟨_, .here j m _ hm (by rw [ht]; rfl)⟩
  | map k v => exact hj ⟨_, .here j m _ hm (by rw [ht]; rfl)⟩
  | struct l => exact fun ⟨bs, hb⟩ => hj ⟨_, .inside j m l bs hm ht hb⟩
  | _ => trivial

/-- A request that makes the processor panic. -/
theorem process_dies {ω : Type} {op : Proto ω} {S : Schema} (hS : S.Ok) {sv : Service η} {m : Method} (hf : sv.find m.name = some m)
    (hn : m.name.length < 2 ^ 31) {bs : Bytes} (hp : Poisons S m.args bs) (L : FloatLib) (mem : List Nat → Nat) (msd : Int) (i : Bin)
    (hi : i.checkReadLength = false) (o : ω) (h : η) (q : I32) :
    ∃ N, ∀ n, N ≤ n → Dies (process binary op S L mem msd n sv) ⟨i, o, h⟩ (BinarySpec.message true m.name CALL q ++ bs) := by
  obtain ⟨N, hN⟩ := Bin.dies_struct (L := L) (mem := mem) (msd := msd) hS hp i hi
  refine ⟨N, fun n hn' => ?_⟩
  unfold process
  refine Dies.later (s' := ⟨i, o, h⟩) (x := ((m.name, CALL, q), none)) ?_ ?_
  · intro rest out
    rw [P.run_input]
    show putBack _ (binary.readMessageBegin.run duplex i _) = _
    rw [Bin.reads_header true m.name CALL q hn (by decide) i hi (.inl rfl) rest out, putBack_ok]
  · simp only [Option.isSome_none, Bool.false_eq_true, if_false, hf]
    exact Dies.now (Dies.input (hN n hn' [] _))

end Thrift
