import Verif.Lemmas.CompactShort
import Verif.Lemmas.Attack
/-!
# Clients and the replies they get
-/

namespace Thrift

theorem duplex_calm : duplex.Calm where
  read n s := by simp only [duplex]; split <;> simp
  write bs s := by simp [duplex]
  flush s := by simp [duplex]

/-- Programs that do not panic in any state. -/
theorem Tri.calm {m : P π α} (h : P.Calm True m) : Tri (fun _ _ => True) m (fun _ _ _ => True) :=
  fun s inp out _ => ⟨(h s).run duplex_calm (inp, out), fun _ _ _ _ => trivial⟩

/-- A client that can send and receive. -/
def Equipped (c : Client π) : Prop := c.output.isSome ∧ c.factory.isSome

theorem Equipped.out {m : P π α} (h : P.Calm True m) :
    Tri (fun c _ => Equipped c) (Client.out m) (fun _ (c : Client π) _ => Equipped c) := by
  intro c inp out hc
  obtain ⟨o, ho⟩ := Option.isSome_iff_exists.mp hc.1
  have h1 := (Tri.calm h o inp out trivial).1
  rw [Client.run_out m c o ho]
  rcases hm : m.run duplex o (inp, out) with ⟨⟨a, x⟩ | _ | _, t⟩
  · rw [putBack_ok]
    exact ⟨(nomatch ·), fun a' s' t' ht => by cases ht; exact ⟨rfl, hc.2⟩⟩
  · rw [hm] at h1; exact absurd rfl h1
  · exact ⟨(nomatch ·), fun a' s' t' ht => (nomatch ht)⟩

theorem tri_inp {m : P π α} (h : P.Calm True m) :
    Tri (fun c _ => c.input.isSome) (Client.inp m) (fun _ (c : Client π) _ => c.input.isSome) := by
  intro c inp out hc
  obtain ⟨o, ho⟩ := Option.isSome_iff_exists.mp hc
  have h1 := (Tri.calm h o inp out trivial).1
  rw [Client.run_inp m c o ho]
  rcases hm : m.run duplex o (inp, out) with ⟨⟨a, x⟩ | _ | _, t⟩
  · rw [putBack_ok]
    exact ⟨(nomatch ·), fun a' s' t' ht => by cases ht; exact rfl⟩
  · rw [hm] at h1; exact absurd rfl h1
  · exact ⟨(nomatch ·), fun a' s' t' ht => (nomatch ht)⟩

section
variable {p : Proto π} (W : p.CalmWrites) (K : p.CalmReads) {S : Schema} (L : FloatLib) (mem : List Nat → Nat) (msd : Int) (fuel : Nat)

include K in
theorem calm_appFields (fuel : Nat) : ∀ n a, P.Calm True (appReadFields p msd fuel n a)
  | 0, _ => .stuck
  | n + 1, x => by
    refine .bind K.fieldBegin.weaken fun _ => .ite (.pure _) <| .ite (.pure _) <| .bind ?_ fun _ =>
      .ite (.pure _) <| .bind K.fieldEnd.weaken fun _ => .ite (.pure _) (calm_appFields fuel n _)
    exact .ite (.bind K.string.weaken fun _ => .pure _) <| .ite (.bind K.i32.weaken fun _ => .pure _) <|
      .bind (calm_skip K msd fuel _ _) fun _ => .pure _

include K in
theorem calm_appRead : P.Calm True (appRead p msd fuel) :=
  .bind K.structBegin.weaken fun _ => .ite (.pure _) <| .bind (calm_appFields K msd fuel fuel _) fun _ => .ite (.pure _) <|
    .bind K.structEnd.weaken fun _ => .pure _

include K in
theorem tri_recv (m : Method) (hr : S.Direct m.result) :
    Tri (fun c _ => (c.input.or c.factory).isSome) (Client.recv p S L mem msd fuel m) (fun _ _ _ => True) := by
  obtain ⟨R, hk, hR⟩ := hr
  refine .seq (B := fun c _ => c.input.isSome) ?_ fun _ => .seq (tri_inp K.messageBegin.weaken) fun _ => .ite (fun _ => .pure fun _ _ _ => trivial) fun _ =>
    .ite (fun _ => ?_) fun _ => ?_
  · intro c inp out hc
    obtain ⟨fc, _ | i, o, q⟩ := c
    · obtain _ | f := fc
      · exact absurd hc (nomatch ·)
      · exact ⟨(nomatch ·), fun _ _ _ ht => by cases ht; rfl⟩
    · exact ⟨(nomatch ·), fun _ _ _ ht => by cases ht; rfl⟩
  · exact .seq (tri_inp (calm_appRead K msd fuel)) fun _ => .ite (fun _ => .pure fun _ _ _ => trivial) fun _ => .seq (tri_inp K.messageEnd.weaken) fun _ =>
      .ite (fun _ => .pure fun _ _ _ => trivial) fun _ => .pure fun _ _ _ => trivial
  · exact .seq (.post .get fun _ _ _ h => h.2) fun _ => .ite (fun _ => .pure fun _ _ _ => trivial) fun _ =>
      .seq (tri_inp (calm_read K hR L mem msd fuel [] m.result hk)) fun _ => .seq (tri_inp K.messageEnd.weaken) fun _ => .pure fun _ _ _ => trivial

include W in
/-- Objects whose fields have the declared types are written without panics. -/
theorem calm_write (hK : ∀ k, ∀ m ∈ (S.structs k).members, m.ty.MapKeyFree) {k : Nat} {attrs : Attrs}
    (ht : FieldsTyped S (S.structs k) attrs) (n : Nat) : P.Calm True (genWrite p S n (S.structs k) attrs) := by
  obtain ⟨N, hN⟩ := CalmVal.all (p := p) (S := S) (f := fun m : Member => (m.ty, attributeOf attrs m.id.toInt))
    (l := (S.structs k).members.filter fun m => m.written S (attributeOf attrs m.id.toInt)) (fun m hm => by
      rw [List.mem_filter] at hm
      exact Typed.calm W hK (ht m hm.1 fun hu => by rw [hu.not_written] at hm; cases hm.2) (hK k m hm.1))
  have h : P.Calm False (genWrite p S (max n N) (S.structs k) attrs) :=
    calm_body W _ (calm_members W _ _ _ fun m hm hw fn sn => hN _ (Nat.le_max_right ..) m
      (List.mem_filter.mpr ⟨mem_sorted.mp hm, hw⟩) fn sn)
  exact P.Calm.down (le_write (Proto.Le.refl p) S (Nat.le_max_left ..) _ _) h

include W K in
/-- A call does not panic. -/
theorem tri_call (hK : ∀ k, ∀ m ∈ (S.structs k).members, m.ty.MapKeyFree) (m : Method) (hr : S.Direct m.result)
    {args : Attrs} (ht : FieldsTyped S (S.structs m.args) args) :
    Tri (fun c _ => Equipped c) (Client.call p S L mem msd fuel m args) (fun _ _ _ => True) := by
  refine .seq (B := fun c _ => Equipped c) (.seq (B := fun c _ => Equipped c) ?_ fun _ => .seq (.modify fun _ _ h => h) fun _ =>
    .seq (.post .get fun _ _ _ h => h.2) fun _ =>
    .seq (Equipped.out (W.messageBegin _ _ _).weaken) fun _ => .seq (Equipped.out (calm_write W hK ht fuel)) fun _ =>
    .seq (Equipped.out W.messageEnd.weaken) fun _ => ?_) fun _ =>
    .ite (fun _ => .pure fun _ _ _ => trivial) fun _ => .ite (fun _ => .pure fun _ _ _ => trivial) fun _ =>
    (tri_recv K L mem msd fuel m hr).pre fun c _ h => ?_
  · intro c inp out hc
    obtain ⟨_ | fc, i, _ | o, q⟩ := c
    · exact absurd hc.1 (nomatch ·)
    · exact absurd hc.2 (nomatch ·)
    · exact absurd hc.1 (nomatch ·)
    · exact ⟨(nomatch ·), fun _ _ _ ht => by cases ht; exact ⟨rfl, rfl⟩⟩
  · intro c inp out hc
    exact ⟨(nomatch ·), fun _ _ _ ht => by cases ht; exact hc⟩
  · obtain ⟨fc, i, o, q⟩ := c
    have := h.2
    cases i
    · exact this
    · rfl

end

/-- A reply with a poisoned result. -/
theorem recv_dies {S : Schema} (hS : S.Ok) (m : Method) (hn : m.name.length < 2 ^ 31) {bs : Bytes} (hp : Poisons S m.result bs)
    (L : FloatLib) (mem : List Nat → Nat) (msd : Int) (f : Option Bin) (i : Bin) (o : Option Bin) (q : I32)
    (hi : i.checkReadLength = false) :
    ∃ N, ∀ n, N ≤ n → Dies (Client.recv binary S L mem msd n m) ⟨f, some i, o, q⟩ (BinarySpec.message true m.name REPLY q ++ bs) := by
  obtain ⟨N, hN⟩ := Bin.dies_struct (L := L) (mem := mem) (msd := msd) hS hp i hi
  refine ⟨N, fun n hn' => ?_⟩
  unfold Client.recv
  refine Dies.later (a := []) (b := BinarySpec.message true m.name REPLY q ++ bs) (s' := (⟨f, some i, o, q⟩ : Client Bin)) (x := ()) (fun _ _ => rfl) ?_
  refine Dies.later (s' := (⟨f, some i, o, q⟩ : Client Bin)) (x := ((m.name, REPLY, q), none)) ?_ ?_
  · intro rest out
    rw [Client.run_inp _ _ i rfl]
    show putBack _ (binary.readMessageBegin.run duplex i _) = _
    rw [Bin.reads_header true m.name REPLY q hn (by decide) i hi (.inl rfl) rest out, putBack_ok]
  · refine Dies.else_ (nomatch ·) (Dies.else_ (by decide) ?_)
    refine Dies.later (a := []) (b := bs) (s' := (⟨f, some i, o, q⟩ : Client Bin)) (x := (⟨f, some i, o, q⟩ : Client Bin)) (fun _ _ => by rw [P.run_get]; rfl) ?_
    refine Dies.else_ (fun h => h rfl) (Dies.now ?_)
    intro out
    obtain ⟨t, h⟩ := hN n hn' [] ((S.structs m.result).fresh S) out
    exact ⟨t, by rw [Client.run_inp _ _ i rfl, show (genRead _ _ _ _ _ _ _ _).run duplex i (bs, out) = _ from h]; rfl⟩

end Thrift
