import Verif.Lemmas.BinaryService
import Verif.Lemmas.GenTagged
import Verif.Props.GeneratedWire
import Verif.Lemmas.CompactValue
/-!
# Services over the compact protocol
-/

namespace Thrift

section
open CompactProtocol

theorem Cmp.q_byteDirect (b : Byte) : (writeByteDirect b).Quiet := .write _
theorem Cmp.q_varint32 (n : I32) : (writeVarint32 n).Quiet := by unfold writeVarint32; quiet
theorem Cmp.q_varint64 (n : I64) : (writeVarint64 n).Quiet := by unfold writeVarint64; quiet
theorem Cmp.q_type (t : TType) : (getCompactType t).Quiet := by unfold getCompactType; quiet
theorem Cmp.q_i16 (n : I16) : (writeI16 n).Quiet := by
  have := Cmp.q_varint32 (int32ToZigzag (n.signExtend 32))
  unfold writeI16; quiet
theorem Cmp.q_binary (b : Bytes) : (writeBinary b).Quiet := by
  have := Cmp.q_varint32 (BitVec.ofNat 32 b.length)
  unfold writeBinary; quiet
theorem Cmp.q_field (t : TType) (id : I16) (o : Option Byte) : (writeFieldBeginInternal t id o).Quiet := by
  have h1 := Cmp.q_type t
  have h2 := Cmp.q_byteDirect
  have h3 := Cmp.q_i16 id
  unfold writeFieldBeginInternal
  have key : ∀ b : Byte, (do
      let s ← P.get
      if id.toInt > s.lastFieldId ∧ id.toInt - s.lastFieldId ≤ 15 then
        let (_, err) ← writeByteDirect (BitVec.ofInt 8 ((id.toInt - s.lastFieldId) * 16) ||| b)
        if err.isSome then return err
        P.modify fun s => { s with lastFieldId := id.toInt }
        return none
      else
        let (_, err) ← writeByteDirect b
        if err.isSome then return err
        let err ← writeI16 id
        if err.isSome then return err
        P.modify fun s => { s with lastFieldId := id.toInt }
        return none : P Cmp GoErr).Quiet := fun b => .bind .get fun s => by
    split
    · exact .bind (h2 _) fun _ => by quiet
    · exact .bind (h2 _) fun _ => by quiet
  cases o with
  | none => exact .bind h1 key
  | some b => exact key b
theorem Cmp.q_list (t : TType) (n : Int) : (writeListBegin t n).Quiet := by
  have h1 := Cmp.q_type t
  have h2 := Cmp.q_byteDirect
  have h3 := Cmp.q_varint32 (BitVec.ofInt 32 n)
  unfold writeListBegin writeCollectionBegin
  refine .bind (.ite ?_ ?_) fun _ => .pure _
  · exact .bind h1 fun _ => .bind (h2 _) fun _ => by quiet
  · exact .bind h1 fun _ => .bind (h2 _) fun _ => by quiet

theorem compact_holds (f : Nat) : (compact f).Holds where
  messageBegin a b c := by
    show (writeMessageBegin a b c).Quiet
    have h1 := Cmp.q_byteDirect
    have h2 := Cmp.q_varint32 c
    have h3 : (writeString a).Quiet := Cmp.q_binary a
    unfold writeMessageBegin
    refine .bind (h1 _) fun _ => .ite (.pure _) (.bind (h1 _) fun _ => ?_)
    quiet
  messageEnd := .pure _
  structBegin a := by show (writeStructBegin a).Quiet; unfold writeStructBegin; quiet
  structEnd := by show writeStructEnd.Quiet; unfold writeStructEnd; quiet
  fieldBegin a b c := by
    show (writeFieldBegin a b c).Quiet
    have h1 := Cmp.q_field b c none
    unfold writeFieldBegin; quiet
  fieldEnd := .pure _
  fieldStop := .bind (Cmp.q_byteDirect _) fun _ => .pure _
  mapBegin a b c := by
    show (writeMapBegin a b c).Quiet
    have h1 := Cmp.q_type a
    have h2 := Cmp.q_type b
    have h3 := Cmp.q_varint32 (BitVec.ofInt 32 c)
    unfold writeMapBegin
    refine .ite (.bind (Cmp.q_byteDirect _) fun _ => .pure _) (.bind h3 fun _ => .ite (.pure _) (.bind h1 fun _ => .bind h2 fun _ => ?_))
    exact .bind (Cmp.q_byteDirect _) fun _ => .pure _
  mapEnd := .pure _
  listBegin := Cmp.q_list
  listEnd := .pure _
  setBegin := Cmp.q_list
  setEnd := .pure _
  bool a := by
    show (writeBool a).Quiet
    unfold writeBool
    refine .bind .get fun s => ?_
    split
    · exact .bind (Cmp.q_field _ _ _) fun _ => by quiet
    · exact .bind (Cmp.q_byteDirect _) fun _ => .pure _
  byte _ := .bind (Cmp.q_byteDirect _) fun _ => .pure _
  i16 := Cmp.q_i16
  i32 a := .bind (Cmp.q_varint32 _) fun _ => .pure _
  i64 a := .bind (Cmp.q_varint64 _) fun _ => .pure _
  double a := .bind (.write _) fun _ => .pure _
  string := Cmp.q_binary
  binary := Cmp.q_binary

end

variable {S : Schema} {L : FloatLib} {mem : List Nat → Nat} {msd : Int}

/-- Values without what the compact protocol loses: `false` fields, short fields after
structs in structs (`Tame`, C19), and empty maps. -/
def Val.Kept (v : Val) : Prop := v.Tame ∧ v.norm = v

/-- A call within what the compact protocol can carry: `Sound`, typed, and the values
of the arguments and of what the handler returns are `Kept`; no `false` is returned. -/
structure CompactSound {η : Type} (S : Schema) (sv : Service η) (m : Method) (a : Attrs) : Prop where
  sound : Sound S sv m a
  typed : Typed S (.struct m.args) ((S.structs m.args).object 0 a)
  kept : ∀ v, Means S (.struct m.args) ((S.structs m.args).object 0 a) v → v.Kept
  result_typed : ∀ h as r h', sv.handle m h as = ((r, none), h') → Typed S (.struct m.result) ((S.structs m.result).object 0 r)
  result_kept : ∀ h as r h', sv.handle m h as = ((r, none), h') → ∀ x ∈ (S.structs m.result).members, ∀ v,
    Means S x.ty (attributeOf r x.id.toInt) v → v ≠ .bool false ∧ v.Kept

/-- What the compact protocol has headers for. -/
def Schema.Compactable (S : Schema) : Prop := ∀ k, ∀ m ∈ (S.structs k).members, m.ty.MapKeyFree ∧ m.ty.BinaryFree

theorem Schema.Compactable.writable (h : S.Compactable) : ∀ k, ∀ m ∈ (S.structs k).members, Writable false m.ty := fun k m hm =>
  ⟨(h k m hm).1, .inr (h k m hm).2⟩

/-- The tree of an arguments object. -/
theorem compact_args (hS : S.Ok) (hc : S.Compactable) {k ptr : Nat} {attrs : Attrs} (hf : Fine S (.struct k) ((S.structs k).object ptr attrs))
    (ht : Typed S (.struct k) ((S.structs k).object ptr attrs))
    (hv : ∀ v, Means S (.struct k) ((S.structs k).object ptr attrs) v → v.Kept) :
    ∃ fs N as', (∀ fuel, N ≤ fuel → flatMembers S (flatVal false S fuel) attrs (S.structs k).sorted = some fs) ∧ fs.WF ∧
      fs.Conforms S (S.structs k) ∧ buildFields S L mem fs [] (S.structs k) ((S.structs k).fresh S) = .ok as' ∧
      SameAttrs (S.structs k) attrs as' ∧ (Val.struct fs).Kept := by
  obtain ⟨gs, M, g1, g2, g3⟩ := flat_struct (bin := false) (ptr := ptr) (hS k).ids ht.struct_inv
    fun m hm hu => (ht.struct_inv m hm hu).flat hS hc.writable (hc.writable k m hm)
  obtain ⟨fs, N, as', h1, h2, h3, h4, h5⟩ := args_tree (L := L) (mem := mem) hS hf
  have e : fs = gs := by
    have a := h1 (max N M) (by omega)
    rw [← flatMembers_free attrs _ fun m hm d => flatVal_free (fun k m hm => (hc k m hm).2) (max N M) m.ty d (hc k m (mem_sorted.mp hm)).2,
      g1 (max N M) (by omega)] at a
    exact (Option.some.inj a).symm
  subst e
  exact ⟨fs, M, as', g1, h2, h3, h4, h5, hv _ g3⟩

theorem pickResult_mem {k : Nat} {r : Attrs} {x : Member} (h : x ∈ (pickResult r (S.structs k).sorted.reverse).toList) :
    x ∈ (S.structs k).members := by
  have := pickResult_spec r (S.structs k).sorted.reverse
  revert this
  cases hp : pickResult r (S.structs k).sorted.reverse with
  | none => rw [hp] at h; cases h
  | some y =>
    rintro ⟨h', -⟩
    rw [hp, Option.toList_some, List.mem_singleton] at h
    rw [h]; exact mem_sorted.mp (List.mem_reverse.mp h')

/-- The tree of a result object. -/
theorem compact_result (hS : S.Ok) (hc : S.Compactable) {k ptr : Nat} {r : Attrs} (hf : Fine S (.struct k) ((S.structs k).object ptr r))
    (ht : Typed S (.struct k) ((S.structs k).object ptr r)) (hd : ResultDef (S.structs k)) (ho : OneOutcome S (S.structs k) r)
    (hv : ∀ x ∈ (S.structs k).members, ∀ v, Means S x.ty (attributeOf r x.id.toInt) v → v ≠ .bool false ∧ v.Kept) :
    ∃ fs N r', (∀ fuel, N ≤ fuel → flatMembers S (flatVal false S fuel) r (pickResult r (S.structs k).sorted.reverse).toList = some fs) ∧
      fs.WF ∧ fs.Conforms S (S.structs k) ∧ buildFields S L mem fs [] (S.structs k) ((S.structs k).fresh S) = .ok r' ∧
      SameAttrs (S.structs k) r r' ∧ (Val.struct fs).Kept := by
  obtain ⟨fs, N, r', h1, h2, h3, h4, h5⟩ := result_tree (L := L) (mem := mem) hS hf hd ho
  have h1' : ∀ fuel, N ≤ fuel → flatMembers S (flatVal false S fuel) r (pickResult r (S.structs k).sorted.reverse).toList = some fs := by
    intro fuel hfu
    rw [flatMembers_free r _ fun m hm d => flatVal_free (fun k m hm => (hc k m hm).2) fuel m.ty d (hc k m (pickResult_mem hm)).2]
    exact h1 fuel hfu
  refine ⟨fs, N, r', h1', h2, h3, h4, h5, ?_⟩
  have hin : ∀ x ∈ (pickResult r (S.structs k).sorted.reverse).toList, x ∈ (S.structs k).members := fun x hx => pickResult_mem hx
  revert h1' hin
  cases pickResult r (S.structs k).sorted.reverse with
  | none =>
    intro h _
    have := h N (Nat.le_refl _)
    simp only [Option.toList_none, flatMembers, Option.some.injEq] at this
    subst this
    exact ⟨trivial, rfl⟩
  | some x =>
    intro h hin
    have hx := hin x (by simp)
    simp only [Option.toList_some, flatMembers] at h
    by_cases hw : x.written S (attributeOf r x.id.toInt) = true
    · simp only [hw, if_true] at h
      have hu : ¬ x.Unset S (attributeOf r x.id.toInt) := by
        rintro ⟨_, hh⟩
        rcases hh with ⟨hn, hd⟩ | ⟨j, hj, hd⟩
        · rw [hd] at hw; simp [Member.written, hn.can, Dyn.isNil] at hw
        · rw [hd] at hw; simp [Member.written, hj, Ty.canBeNil, Ty.isEnum, Member.isSet] at hw
      obtain ⟨v, M, f1, -, f3⟩ := (ht.struct_inv x hx hu).flat hS hc.writable (hc.writable k x hx)
      have := h (max N M) (by omega)
      rw [f1 _ (by omega)] at this
      simp only [Option.some.injEq] at this
      subst this
      obtain ⟨a, b, c⟩ := hv x hx v f3
      exact ⟨⟨a, b, fun _ => by simp [Fields.startsShort], trivial⟩, by simp [Val.norm, Fields.norm, c]⟩
    · simp only [hw, Bool.false_eq_true, if_false] at h
      have := h N (Nat.le_refl _)
      simp only [Option.some.injEq] at this
      subst this
      exact ⟨trivial, rfl⟩

/-! ## Bodies -/

section
variable (fv : Nat) (h10 : 10 ≤ fv)

theorem Cmp.emits_app (x : AppExc) (hx : x.message.length < 2 ^ 31) (o : Cmp) (ho : o.booleanField = none) :
    Emits (appWrite (compact fv) x) o o (CompactSpec.encode (.struct x.tree)) :=
  (Cmp.emits_val fv (.struct x.tree) o ho (x.tree_wf hx)).sim (sim_app (blind_compact fv) x)

include h10 in
theorem Cmp.reads_app (x : AppExc) (hx : x.message.length < 2 ^ 31) (i : Cmp) (hi : i.boolValueIsNotNull = false) (fuel : Nat) (hf : 3 ≤ fuel) :
    ∃ i', i'.boolValueIsNotNull = false ∧ Reads (appRead (compact fv) msd fuel) i i' (CompactSpec.encode (.struct x.tree)) (some x) := by
  obtain ⟨i', hd, hk⟩ := Cmp.dec_val fv h10 (.struct x.tree) i hi (x.tree_wf hx) x.tree_tame
  have hn : x.tree.norm = x.tree := by
    unfold AppExc.tree; split <;> rfl
  rw [Val.norm, hn] at hd
  have := Dec.app msd x.tree fuel (Nat.le_trans x.tree_size hf) hd
  rw [x.collect_tree _ rfl] at this
  exact ⟨i', hk.1.1, this⟩

theorem Cmp.emits_args (o : Cmp) (ho : o.booleanField = none) {fuel : Nat} {sd : StructDef} {a : Attrs} {fs : Fields}
    (h : flatMembers S (flatVal false S fuel) a sd.sorted = some fs) (hw : fs.WF) :
    Emits (genWrite (compact fv) S fuel sd a) o o (CompactSpec.encode (.struct fs)) :=
  (Cmp.emits_val fv (.struct fs) o ho hw).sim (sim_struct (blind_compact fv) fuel sd a fs h)

theorem Cmp.emits_result (o : Cmp) (ho : o.booleanField = none) {fuel : Nat} {sd : StructDef} {r : Attrs} {fs : Fields}
    (h : flatMembers S (flatVal false S fuel) r (pickResult r sd.sorted.reverse).toList = some fs) (hw : fs.WF) :
    Emits (genWriteResult (compact fv) S fuel sd r) o o (CompactSpec.encode (.struct fs)) :=
  (Cmp.emits_val fv (.struct fs) o ho hw).sim (sim_result (blind_compact fv) fuel sd r fs h)

include h10 in
theorem Cmp.reads_object (hS : S.Ok) (i : Cmp) (hi : i.boolValueIsNotNull = false) {sd : StructDef} {path : List Nat} (hsd : sd.Ok)
    {as' : Attrs} {fs : Fields} (hw : fs.WF) (hk : (Val.struct fs).Kept) (hc : fs.Conforms S sd)
    (hb : buildFields S L mem fs path sd (sd.fresh S) = .ok as') :
    ∃ i', i'.boolValueIsNotNull = false ∧ ∀ fuel, fs.size ≤ fuel →
      Reads (genRead (compact fv) S L mem msd fuel path sd) i i' (CompactSpec.encode (.struct fs)) as' := by
  obtain ⟨i', hdec, hk'⟩ := Cmp.dec_val fv h10 (.struct fs) i hi hw hk.1
  rw [hk.2] at hdec
  refine ⟨i', hk'.1.1, fun fuel hf => ?_⟩
  have ho := Dec.genInto hS L mem msd fs fuel path sd (sd.fresh S) hf hsd hc hdec
  rw [hb] at ho
  exact ho

theorem Cmp.header_missing (i : Cmp) : ∃ x e, ∀ out,
    (compact fv).readMessageBegin.run duplex i ([], out) = (.ok ((x, some e), i), ([], out)) := ⟨_, _, fun _ => rfl⟩

theorem Cmp.reads_header (name : Bytes) (hn : name.length < 2 ^ 31) (t q : I32) (ht : t.toNat < 4) (s : Cmp) (h10 : 10 ≤ fv) :
    Reads (compact fv).readMessageBegin s s (CompactSpec.message name t q) (name, t, q) := by
  have := Cmp.reads_message name hn t q s fv h10
  rwa [Nat.mod_eq_of_lt ht, BitVec.ofNat_toNat, BitVec.setWidth_eq] at this

theorem Cmp.emits_end (o : Cmp) : Emits (compact fv).writeMessageEnd o o [] := Emits.pure o
theorem Cmp.runs_end (i : Cmp) : Runs (compact fv).readMessageEnd i i [] none := Runs.pure i none

end

/-! ## Calls -/

section
variable {T : Transport σ} {inn out buf : σ → Bytes} {η : Type} {sv : Service η} {m : Method}

theorem Endpoint.compact_exception (E : Endpoint T inn out buf) (fv : Nat) (name : Bytes) (hn : name.length < 2 ^ 31) (x : AppExc)
    (hx : x.message.length < 2 ^ 31) (q : I32) (o : Cmp) (ho : o.booleanField = none) :
    Sends T inn out buf (sendException (compact fv) name x q) o o
      (CompactSpec.message name EXCEPTION q ++ CompactSpec.encode (.struct x.tree)) () := by
  have := E.sends_exception (p := compact fv) (Cmp.emits_message name hn EXCEPTION q o) (Cmp.emits_app fv x hx o ho) (Cmp.emits_end fv o)
  rwa [List.append_nil, List.append_nil] at this

theorem Endpoint.compact_reply (E : Endpoint T inn out buf) (fv : Nat) (hn : m.name.length < 2 ^ 31) (q : I32) (o : Cmp)
    (ho : o.booleanField = none) {fuel : Nat} {r : Attrs} {fs : Fields}
    (h : flatMembers S (flatVal false S fuel) r (pickResult r (S.structs m.result).sorted.reverse).toList = some fs) (hw : fs.WF) :
    Sends T inn out buf (sendReply (compact fv) S fuel m r q) o o
      (CompactSpec.message m.name REPLY q ++ CompactSpec.encode (.struct fs)) none := by
  have := E.sends_reply (p := compact fv) (Cmp.emits_message m.name hn REPLY q o) (Cmp.emits_result fv o ho h hw) (Cmp.emits_end fv o)
  rwa [List.append_nil, List.append_nil] at this

end

section
variable {C V : Transport σ} {up down cbuf vbuf : σ → Bytes} {η : Type} {sv : Service η} {m : Method} {f : Cmp} {fv : Nat}

theorem compact_call (K : Link C V up down cbuf vbuf) (hS : S.Ok) (hc : S.Compactable) (h10 : 10 ≤ fv) (hf : f.booleanField = none)
    {a : Attrs} (hm : CompactSound S sv m a) (hone : m.oneway = false) :
    ∃ as', SameAttrs (S.structs m.args) a as' ∧
      (∀ h r h', sv.handle m h as' = ((r, none), h') →
        ∃ r', SameAttrs (S.structs m.result) r r' ∧ ∃ N, ∀ fuel, N ≤ fuel → ∀ (n : I32) (j i o : Cmp) t, j.boolValueIsNotNull = false →
          i.boolValueIsNotNull = false → o.booleanField = none → Settled up down cbuf vbuf t → ∃ t' j' i',
          (Client.call (compact fv) S L mem msd fuel m a).run (served C V (process (compact fv) (compact fv) S L mem msd fuel sv))
            ⟨some f, some j, some f, n⟩ (some ⟨i, o, h⟩, t) =
            (.ok ((some r', none), ⟨some f, some j', some f, n + 1⟩), (some ⟨i', o, h'⟩, t')) ∧ Settled up down cbuf vbuf t' ∧
          j'.boolValueIsNotNull = false ∧ i'.boolValueIsNotNull = false) ∧
      (∀ h r e h', sv.handle m h as' = ((r, some e), h') →
        ∃ N, ∀ fuel, N ≤ fuel → ∀ (n : I32) (j i o : Cmp) t, j.boolValueIsNotNull = false →
          i.boolValueIsNotNull = false → o.booleanField = none → Settled up down cbuf vbuf t → ∃ t' j',
          (Client.call (compact fv) S L mem msd fuel m a).run (served C V (process (compact fv) (compact fv) S L mem msd fuel sv))
            ⟨some f, some j, some f, n⟩ (some ⟨i, o, h⟩, t) =
            (.ok ((none, some (internalError m.name e).err), ⟨some f, some j', some f, n + 1⟩), (none, t')) ∧
            Settled up down cbuf vbuf t' ∧ j'.boolValueIsNotNull = false) := by
  obtain ⟨fs, N, as', h1, h2, h3, h4, h5, h6⟩ := compact_args (L := L) (mem := mem) hS hc hm.sound.args hm.typed hm.kept
  have hn := hm.sound.name
  refine ⟨as', h5, ?_, ?_⟩
  · intro h r h' hh
    obtain ⟨f1, f2⟩ := hm.sound.fine h as' r h' hh
    obtain ⟨gs, M, r', g1, g2, g3, g4, g5, g6⟩ := compact_result (L := L) (mem := mem) hS hc f1 (hm.result_typed h as' r h' hh)
      hm.sound.result f2 (hm.result_kept h as' r h' hh)
    refine ⟨r', g5, max (max N M) (max fs.size gs.size), fun fuel hfu n j i o t hj hi ho ht => ?_⟩
    obtain ⟨i', hi', ri⟩ := Cmp.reads_object (msd := msd) fv h10 hS i hi (hS _) h2 h6 h3 h4
    obtain ⟨j', hj', rj⟩ := Cmp.reads_object (msd := msd) fv h10 hS j hj (hS _) g2 g6 g3 g4
    have hs := K.server.serves_known (S := S) (L := L) (mem := mem) (msd := msd) (fuel := fuel) (op := compact fv)
      (Cmp.reads_header fv m.name hn CALL (n + 1) (by decide) i h10) hm.sound.known
      (K.server.serves_reply (ri fuel (by omega)) (Cmp.runs_end fv i') hh
        (by rw [hone]; exact K.server.compact_reply fv hn (n + 1) o ho (g1 fuel (by omega)) g2))
    obtain ⟨t', e, ht'⟩ := call_run K (p := compact fv) (c := ⟨some f, some j, some f, n⟩) rfl rfl (compact_holds fv) hone
      (Cmp.emits_message m.name hn CALL (n + 1) f)
      (Cmp.emits_args fv f hf (h1 fuel (by omega)) h2) (Cmp.emits_end fv f) (by rw [List.append_nil]; exact hs)
      (fun w t => recv_reply K (compact_reads fv) (c := ⟨some f, some j, some f, n + 1⟩) rfl (by decide)
        (Cmp.reads_header fv m.name hn REPLY (n + 1) (by decide) j h10) (rj fuel (by omega)) (Cmp.runs_end fv j') w t) t ht
    exact ⟨t', j', i', e, ht', hj', hi'⟩
  · intro h r e h' hh
    have hl := internal_length (hm.sound.message h as' r e h' hh)
    refine ⟨max N (max fs.size 3), fun fuel hfu n j i o t hj hi ho ht => ?_⟩
    obtain ⟨i', hi', ri⟩ := Cmp.reads_object (msd := msd) fv h10 hS i hi (hS _) h2 h6 h3 h4
    obtain ⟨j', hj', rj⟩ := Cmp.reads_app (msd := msd) fv h10 _ hl j hj fuel (by omega)
    have hs := K.server.serves_known (S := S) (L := L) (mem := mem) (msd := msd) (fuel := fuel) (op := compact fv)
      (Cmp.reads_header fv m.name hn CALL (n + 1) (by decide) i h10) hm.sound.known
      (K.server.serves_failure (ri fuel (by omega)) (Cmp.runs_end fv i') hh
        (K.server.compact_exception fv m.name hn (internalError m.name e) hl (n + 1) o ho))
    obtain ⟨t', e, ht'⟩ := call_run K (p := compact fv) (c := ⟨some f, some j, some f, n⟩) rfl rfl (compact_holds fv) hone
      (Cmp.emits_message m.name hn CALL (n + 1) f)
      (Cmp.emits_args fv f hf (h1 fuel (by omega)) h2) (Cmp.emits_end fv f) (by rw [List.append_nil]; exact hs)
      (fun w t => recv_exception (L := L) (mem := mem) (S := S) (m := m) K (compact_reads fv) (c := ⟨some f, some j, some f, n + 1⟩) rfl
        (Cmp.reads_header fv m.name hn EXCEPTION (n + 1) (by decide) j h10) rj (Cmp.runs_end fv j') w t) t ht
    exact ⟨t', j', e, ht', hj'⟩

theorem compact_gone_all (K : Link C V up down cbuf vbuf) (hS : S.Ok) (hc : S.Compactable) (hf : f.booleanField = none) :
    ∀ cs : List (Method × Attrs), (∀ c ∈ cs, CompactSound S sv c.1 c.2 ∧ c.1.oneway = false) →
    ∃ rs N, rs.length = cs.length ∧ (∀ x ∈ rs, x.1 = none ∧ x.2.isSome = true) ∧
      ∀ fuel, N ≤ fuel → ∀ (n : I32) (j : Cmp) t, down t = [] → ∃ c' x,
      (callAll (Client.call (compact fv) S L mem msd fuel) cs).run
        (served C V (process (ω := Cmp) (compact fv) (compact fv) S L mem msd fuel sv))
        ⟨some f, some j, some f, n⟩ (none, t) = (.ok (rs, c'), x)
  | [], _ => ⟨[], 0, rfl, (by intro x hx; cases hx), fun fuel _ n j t _ => ⟨_, _, rfl⟩⟩
  | (m, a) :: cs, h => by
    obtain ⟨rs, N, h1, h2, h3⟩ := compact_gone_all K hS hc hf cs fun c hc => h c (List.mem_cons_of_mem _ hc)
    obtain ⟨hm, hone⟩ := h (m, a) List.mem_cons_self
    obtain ⟨fs, M, as', a1, a2, -⟩ := compact_args (L := L) (mem := mem) hS hc hm.sound.args hm.typed hm.kept
    have hr : ∀ j : Cmp, ∀ out, (compact fv).readMessageBegin.run duplex j ([], out) =
        (.ok ((([], 0, 0), some (newTProtocolException BAD_VERSION (ascii "Expected protocol id"))), j), ([], out)) := fun _ _ => rfl
    refine ⟨(none, some (newTProtocolException BAD_VERSION (ascii "Expected protocol id"))) :: rs, max N M, by simp [h1], ?_,
      fun fuel hfu n j t ht => ?_⟩
    · intro x hx
      rcases List.mem_cons.mp hx with rfl | hx
      · exact ⟨rfl, rfl⟩
      · exact h2 x hx
    · obtain ⟨t', e1, ht'⟩ := call_gone (L := L) (mem := mem) (msd := msd)
        (proc := process (ω := Cmp) (compact fv) (compact fv) S L mem msd fuel sv) K (compact_reads fv)
        (c := ⟨some f, some j, some f, n⟩) rfl rfl rfl (compact_holds fv) hone
        (Cmp.emits_message m.name hm.sound.name CALL (n + 1) f) (Cmp.emits_args fv f hf (a1 fuel (by omega)) a2) (Cmp.emits_end fv f)
        (hr j) t ht
      obtain ⟨c', x, e2⟩ := h3 fuel (by omega) (n + 1) j t' ht'
      refine ⟨c', x, ?_⟩
      rw [callAll, P.run_bind, e1, andThen_ok, P.run_bind, e2, andThen_ok, P.run_pure]

theorem compact_calls (K : Link C V up down cbuf vbuf) (hS : S.Ok) (hc : S.Compactable) (h10 : 10 ≤ fv) (hf : f.booleanField = none) :
    ∀ (cs : List (Method × Attrs)) (h : η), (∀ c ∈ cs, CompactSound S sv c.1 c.2 ∧ c.1.oneway = false) →
      ∃ rs N, AnsweredUntilError S sv h cs rs ∧ ∀ fuel, N ≤ fuel → ∀ (n : I32) (j i o : Cmp) t, j.boolValueIsNotNull = false →
        i.boolValueIsNotNull = false → o.booleanField = none → Settled up down cbuf vbuf t → ∃ c' x,
      (callAll (Client.call (compact fv) S L mem msd fuel) cs).run (served C V (process (compact fv) (compact fv) S L mem msd fuel sv))
        ⟨some f, some j, some f, n⟩ (some ⟨i, o, h⟩, t) = (.ok (rs, c'), x)
  | [], h, _ => ⟨[], 0, .nil h, fun fuel _ n j i o t _ _ _ _ => ⟨_, _, rfl⟩⟩
  | (m, a) :: cs, h, hs => by
    obtain ⟨hm, hone⟩ := hs (m, a) List.mem_cons_self
    obtain ⟨as', ha, hgood, hbad⟩ := compact_call (L := L) (mem := mem) (msd := msd) K hS hc h10 hf hm hone
    rcases hh : sv.handle m h as' with ⟨⟨r, _ | e⟩, h'⟩
    · obtain ⟨rs, N, h1, h2⟩ := compact_calls K hS hc h10 hf cs h' fun c hc => hs c (List.mem_cons_of_mem _ hc)
      obtain ⟨r', hr', M, h3⟩ := hgood h r h' hh
      refine ⟨(some r', none) :: rs, max N M, .cons ha hh ?_ h1, fun fuel hfu n j i o t hj hi ho ht => ?_⟩
      · rw [Returned, if_neg (by rw [show m.oneway = false from hone]; decide)]; exact ⟨r', rfl, hr'⟩
      · obtain ⟨t', j', i', e1, ht', hj', hi'⟩ := h3 fuel (by omega) n j i o t hj hi ho ht
        obtain ⟨c', x, e2⟩ := h2 fuel (by omega) (n + 1) j' i' o t' hj' hi' ho ht'
        refine ⟨c', x, ?_⟩
        rw [callAll, P.run_bind, e1, andThen_ok, P.run_bind, e2, andThen_ok, P.run_pure]
    · obtain ⟨rs, N, l1, l2, h2⟩ := compact_gone_all (L := L) (mem := mem) (msd := msd) (f := f) (sv := sv) (fv := fv) K hS hc hf cs
        fun c hc => hs c (List.mem_cons_of_mem _ hc)
      obtain ⟨M, h3⟩ := hbad h r e h' hh
      refine ⟨(none, some (internalError m.name e).err) :: rs, max N M, .stop ha hh ?_ l1 l2, fun fuel hfu n j i o t hj hi ho ht => ?_⟩
      · rw [Returned, if_neg (by rw [show m.oneway = false from hone]; decide)]; rfl
      · obtain ⟨t', j', e1, ht', hj'⟩ := h3 fuel (by omega) n j i o t hj hi ho ht
        obtain ⟨c', x, e2⟩ := h2 fuel (by omega) (n + 1) j' t' ht'.down
        refine ⟨c', x, ?_⟩
        rw [callAll, P.run_bind, e1, andThen_ok, P.run_bind, e2, andThen_ok, P.run_pure]

end
end Thrift
