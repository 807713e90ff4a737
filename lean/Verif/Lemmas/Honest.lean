import Verif.Lemmas.BinaryMessage
/-!
# Honest readers

A reader is honest when it either returns an error or has not been affected by
the end of the input: with more input its outcome would be the same.  An honest
reader of an encoding reports every truncation of it.
-/

namespace Thrift
open BinaryProtocol

/-- Every outcome is an error or does not depend on what follows the input;
nothing is written.  `err` extracts the error from the result. -/
def Honest (err : α → GoErr) (m : P π α) : Prop :=
  ∀ s inp out,
    (∃ a s' rest, m.run duplex s (inp, out) = (.ok (a, s'), (rest, out)) ∧ (err a).isSome) ∨
    (∃ r rest, ∀ more, m.run duplex s (inp ++ more, out) = (r, (rest ++ more, out)))

/-- `m` always ends in an error, without panic. -/
def Fails (err : α → GoErr) (m : P π α) : Prop :=
  ∀ s inp out, ∃ a s' rest, m.run duplex s (inp, out) = (.ok (a, s'), (rest, out)) ∧ (err a).isSome

theorem Fails.pure {err : α → GoErr} {a : α} (h : (err a).isSome) :
    Fails err (Pure.pure a : P π α) :=
  fun s inp _ => ⟨a, s, inp, rfl, h⟩

theorem Honest.pure (err : α → GoErr) (a : α) : Honest err (Pure.pure a : P π α) :=
  fun s inp _ => .inr ⟨.ok (a, s), inp, fun _ => rfl⟩

theorem Honest.get (err : π → GoErr) : Honest err (P.get : P π π) :=
  fun s inp _ => .inr ⟨.ok (s, s), inp, fun _ => rfl⟩

theorem Honest.modify (err : Unit → GoErr) (f : π → π) : Honest err (P.modify f) :=
  fun s inp _ => .inr ⟨.ok ((), f s), inp, fun _ => rfl⟩

theorem Honest.panic (err : α → GoErr) : Honest err (P.panic : P π α) :=
  fun _ inp _ => .inr ⟨.panic, inp, fun _ => rfl⟩

theorem Honest.stuck (err : α → GoErr) : Honest err (P.stuck : P π α) :=
  fun _ inp _ => .inr ⟨.stuck, inp, fun _ => rfl⟩

theorem Honest.readAll (n : Nat) : Honest (·.err) (P.readAll n : P π _) := by
  intro s inp out
  by_cases h : n ≤ inp.length
  · refine .inr ⟨.ok (⟨inp.take n, n, none⟩, s), inp.drop n, fun more => ?_⟩
    rw [P.run_readAll_duplex, if_pos (by rw [List.length_append]; omega), List.take_append_of_le_length h,
      List.drop_append_of_le_length h]
  · refine .inl ⟨_, s, _, by rw [P.run_readAll_duplex, if_neg h], rfl⟩

theorem Honest.bind {e1 : α → GoErr} {e2 : β → GoErr} {m : P π α} {k : α → P π β} (hm : Honest e1 m)
    (hk : ∀ a, e1 a = none → Honest e2 (k a)) (hf : ∀ a, (e1 a).isSome → Fails e2 (k a)) :
    Honest e2 (m >>= k) := by
  intro s inp out
  rcases hm s inp out with ⟨a, s', rest, h, he⟩ | ⟨r, rest, h⟩
  · obtain ⟨b, s'', t', h', he'⟩ := hf a he s' rest out
    exact .inl ⟨b, s'', t', by simp [h, h'], he'⟩
  · cases r with
    | ok x =>
      obtain ⟨a, s'⟩ := x
      have h0 := h []
      rw [List.append_nil, List.append_nil] at h0
      by_cases he : (e1 a).isSome
      · obtain ⟨b, s'', t', h', he'⟩ := hf a he s' rest out
        exact .inl ⟨b, s'', t', by simp [h0, h'], he'⟩
      · rcases hk a (by simpa using he) s' rest out with ⟨b, s'', t, h', he'⟩ | ⟨r, rest', h'⟩
        · exact .inl ⟨b, s'', t, by simp [h0, h'], he'⟩
        · exact .inr ⟨r, rest', fun more => by simp [h more, h' more]⟩
    | panic => exact .inr ⟨.panic, rest, fun more => by simp [h more]⟩
    | stuck => exact .inr ⟨.stuck, rest, fun more => by simp [h more]⟩

/-- `x, e := m; if e != nil { return bad, e }; k x`. -/
theorem Honest.check {m : P π (α × GoErr)} {k : α × GoErr → P π (β × GoErr)} {bad : α × GoErr → β}
    {w : GoErr → GoErr} (hw : ∀ e, e.isSome → (w e).isSome) (hm : Honest Prod.snd m)
    (hk : ∀ a, Honest Prod.snd (k (a, none))) :
    Honest Prod.snd (m >>= fun r => if r.2.isSome then Pure.pure (bad r, w r.2) else k r) := by
  refine hm.bind ?_ ?_
  · rintro ⟨a, e⟩ h
    simp only at h; subst h
    exact hk a
  · intro a h
    rw [if_pos h]
    exact Fails.pure (hw _ h)

/-- `e := m; if e != nil { return bad, e }; k`. -/
theorem Honest.checkE {m : P π GoErr} {k : GoErr → P π (β × GoErr)} {bad : β}
    (hm : Honest id m) (hk : Honest Prod.snd (k none)) :
    Honest Prod.snd (m >>= fun e => if e.isSome then Pure.pure (bad, e) else k e) := by
  refine hm.bind ?_ ?_
  · intro e h
    simp only [id] at h; subst h
    exact hk
  · intro a h
    simp only [id] at h
    rw [if_pos h]
    exact Fails.pure h

/-- `x, e := m; return f(x), e`. -/
theorem Honest.map {m : P π (α × GoErr)} {f : α × GoErr → β} {w : GoErr → GoErr}
    (hw : ∀ e, e.isSome → (w e).isSome) (hm : Honest Prod.snd m) :
    Honest Prod.snd (m >>= fun r => Pure.pure (f r, w r.2)) := by
  refine hm.bind ?_ ?_
  · intro r _; exact Honest.pure _ _
  · intro a h; exact Fails.pure (hw _ h)

/-- `x, e := m; return e`. -/
theorem Honest.mapE {m : P π GoErr} {b : β} (hm : Honest id m) :
    Honest Prod.snd (m >>= fun e => Pure.pure (b, e)) := by
  refine hm.bind ?_ ?_
  · intro r _; exact Honest.pure _ _
  · intro a h; exact Fails.pure h

theorem Honest.ite {err : α → GoErr} {c : Prop} [Decidable c] {a b : P π α} (ha : Honest err a)
    (hb : Honest err b) : Honest err (if c then a else b) := by
  split <;> assumption

/-- An honest reader of `bs` reports every truncation of `bs`. -/
theorem Honest.truncated {err : α → GoErr} {m : P π α} (hm : Honest err m) {s s' : π} {bs : Bytes}
    {r : α} (h : Runs m s s' bs r) (k : Nat) (hk : k < bs.length) (out : Bytes) :
    ∃ a s'' rest, m.run duplex s (bs.take k, out) = (.ok (a, s''), (rest, out)) ∧ (err a).isSome := by
  rcases hm s (bs.take k) out with h' | ⟨r', rest, h'⟩
  · exact h'
  · exfalso
    have h1 := h' (bs.drop k)
    have h2 := h [] out
    rw [List.take_append_drop] at h1
    rw [List.append_nil, h1] at h2
    have := congrArg (fun x => x.2.1.length) h2
    simp at this
    omega

theorem isSome_protocolFromOsError (e : GoErr) (h : e.isSome) : (protocolFromOsError e).isSome := by
  cases e with
  | none => simp at h
  | some e => simp only [protocolFromOsError]; split <;> rfl

namespace Bin

theorem honest_check (n : Int) : Honest id (BinaryProtocol.checkReadLength n) := by
  intro s inp out
  refine .inr ⟨((BinaryProtocol.checkReadLength n).run duplex s (inp, out)).1, inp, fun more => ?_⟩
  simp only [BinaryProtocol.checkReadLength, P.run_bind, P.run_get, andThen_ok, P.run_ite, P.run_modify,
    P.run_pure]
  split
  · split <;> rfl
  · rfl

theorem honest_readAllBuf (n : Nat) : Honest Prod.snd (readAllBuf n) := by
  refine Honest.checkE (honest_check n) ?_
  refine (Honest.readAll n).bind (fun _ _ => Honest.pure _ _) ?_
  intro a h
  exact Fails.pure (isSome_protocolFromOsError _ h)

theorem honest_byte : Honest Prod.snd readByte := Honest.map (w := id) (fun _ h => h) (honest_readAllBuf 1)
theorem honest_bool : Honest Prod.snd readBool := Honest.map (w := id) (fun _ h => h) honest_byte
theorem honest_i16 : Honest Prod.snd readI16 := Honest.map (w := id) (fun _ h => h) (honest_readAllBuf 2)
theorem honest_i32 : Honest Prod.snd readI32 := Honest.map (w := id) (fun _ h => h) (honest_readAllBuf 4)
theorem honest_i64 : Honest Prod.snd readI64 := Honest.map (w := id) (fun _ h => h) (honest_readAllBuf 8)
theorem honest_double : Honest Prod.snd readDouble := Honest.map (w := id) (fun _ h => h) (honest_readAllBuf 8)

theorem honest_rawRead (n : Nat) : Honest Prod.snd (do
    let r ← P.readAll n; return (r.buf, protocolFromOsError r.err) : P Bin (Bytes × GoErr)) := by
  refine (Honest.readAll n).bind (fun _ _ => Honest.pure _ _) ?_
  intro a h
  exact Fails.pure (isSome_protocolFromOsError _ h)

theorem honest_stringBody (n : Int) : Honest Prod.snd (readStringBody n) := by
  unfold readStringBody
  exact Honest.ite (Honest.pure _ _) (Honest.checkE (honest_check n) (honest_rawRead _))

theorem honest_string : Honest Prod.snd readString :=
  Honest.check (w := id) (fun _ h => h) honest_i32 fun _ => honest_stringBody _

theorem honest_binary : Honest Prod.snd readBinary :=
  Honest.check (w := id) (fun _ h => h) honest_i32 fun _ => Honest.checkE (honest_check _)
    (Honest.ite (Honest.panic _) (honest_rawRead _))

theorem honest_fieldBegin : Honest Prod.snd readFieldBegin := by
  refine Honest.check (w := id) (fun _ h => h) honest_byte fun a => ?_
  exact Honest.ite (Honest.map (w := id) (fun _ h => h) honest_i16) (Honest.pure _ _)

theorem honest_mapBegin : Honest Prod.snd readMapBegin :=
  Honest.check isSome_protocolFromOsError honest_byte fun _ =>
  Honest.check isSome_protocolFromOsError honest_byte fun _ =>
  Honest.check isSome_protocolFromOsError honest_i32 fun _ => Honest.pure _ _

theorem honest_listBegin : Honest Prod.snd readListBegin :=
  Honest.check isSome_protocolFromOsError honest_byte fun _ =>
  Honest.check isSome_protocolFromOsError honest_i32 fun _ => Honest.pure _ _

theorem honest_messageBegin : Honest Prod.snd readMessageBegin := by
  refine Honest.check isSome_protocolFromOsError honest_i32 fun size => ?_
  refine Honest.ite ?_ ?_
  · refine Honest.ite (Honest.pure _ _) ?_
    exact Honest.check isSome_protocolFromOsError honest_string fun _ =>
      Honest.check isSome_protocolFromOsError honest_i32 fun _ => Honest.pure _ _
  · refine (Honest.get (fun _ => none)).bind (fun s _ => ?_) (fun _ h => by simp at h)
    refine Honest.ite (Honest.pure _ _) ?_
    exact Honest.check (w := id) (fun _ h => h) (honest_stringBody _) fun _ =>
      Honest.check (w := id) (fun _ h => h) honest_byte fun _ =>
      Honest.check (w := id) (fun _ h => h) honest_i32 fun _ => Honest.pure _ _

theorem honest_nop : Honest id nop := Honest.pure _ _

theorem honest_vals {rd : P Bin (Val × GoErr)} (h : Honest Prod.snd rd) :
    ∀ n, Honest Prod.snd (readVals rd n)
  | 0 => Honest.pure _ _
  | n + 1 => Honest.check (w := id) (fun _ h => h) h fun _ =>
      Honest.map (w := id) (fun _ h => h) (honest_vals h n)

theorem honest_pairs {rk rv : P Bin (Val × GoErr)} (hk : Honest Prod.snd rk) (hv : Honest Prod.snd rv) :
    ∀ n, Honest Prod.snd (readPairs rk rv n)
  | 0 => Honest.pure _ _
  | n + 1 => Honest.check (w := id) (fun _ h => h) hk fun _ =>
      Honest.check (w := id) (fun _ h => h) hv fun _ =>
      Honest.map (w := id) (fun _ h => h) (honest_pairs hk hv n)

theorem honest_fields {rd : TType → P Bin (Val × GoErr)} (h : ∀ t, Honest Prod.snd (rd t)) :
    ∀ n, Honest Prod.snd (readFields binary rd n)
  | 0 => Honest.stuck _
  | n + 1 => Honest.check (w := id) (fun _ h => h) honest_fieldBegin fun _ =>
      Honest.ite (Honest.pure _ _) <|
      Honest.check (w := id) (fun _ h => h) (h _) fun _ =>
      Honest.checkE honest_nop <|
      Honest.map (w := id) (fun _ h => h) (honest_fields h n)

/-- Reading a whole value is honest, whatever its type. -/
theorem honest_val : ∀ (fuel : Nat) (t : TType), Honest Prod.snd (readVal binary fuel t)
  | 0, _ => Honest.stuck _
  | fuel + 1, t => by
    unfold readVal
    have M {α : Type} {m : P Bin (α × GoErr)} {f : α × GoErr → Val} (h : Honest Prod.snd m) :=
      Honest.map (f := f) (w := id) (fun _ h => h) h
    refine Honest.ite (M honest_bool) <| Honest.ite (M honest_byte) <| Honest.ite (M honest_i16) <|
      Honest.ite (M honest_i32) <| Honest.ite (M honest_i64) <| Honest.ite (M honest_double) <|
      Honest.ite (M honest_string) <| Honest.ite ?_ <| Honest.ite ?_ <| Honest.ite ?_ <|
      Honest.ite ?_ (Honest.pure _ _)
    · exact Honest.check (w := id) (fun _ h => h) (Honest.pure _ _) fun _ =>
        Honest.check (w := id) (fun _ h => h) (honest_fields (honest_val fuel) fuel) fun _ =>
        Honest.mapE honest_nop
    · exact Honest.check (w := id) (fun _ h => h) honest_mapBegin fun _ =>
        Honest.check (w := id) (fun _ h => h) (honest_pairs (honest_val fuel _) (honest_val fuel _) _) fun _ =>
        Honest.mapE honest_nop
    · exact Honest.check (w := id) (fun _ h => h) honest_listBegin fun _ =>
        Honest.check (w := id) (fun _ h => h) (honest_vals (honest_val fuel _) _) fun _ =>
        Honest.mapE honest_nop
    · exact Honest.check (w := id) (fun _ h => h) honest_listBegin fun _ =>
        Honest.check (w := id) (fun _ h => h) (honest_vals (honest_val fuel _) _) fun _ =>
        Honest.mapE honest_nop

end Bin
end Thrift
