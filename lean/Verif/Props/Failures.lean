import Verif.Lemmas.Tells
import Verif.Lemmas.KernelRfl
import Verif.Props.Service
/-!
# Failures of the transport

C61 and C63 to C65: what a caller learns when calls on the transport fail.
-/

namespace Thrift

/-! ## C63: write calls -/

theorem Proto.Tells.perform {p : Proto π} (H : p.Tells) (c : WriteCall) : P.Tells id (p.perform c) := by
  cases c
  case messageBegin => exact H.messageBegin _ _ _
  case messageEnd => exact H.messageEnd
  case structBegin => exact H.structBegin _
  case structEnd => exact H.structEnd
  case fieldBegin => exact H.fieldBegin _ _ _
  case fieldEnd => exact H.fieldEnd
  case fieldStop => exact H.fieldStop
  case mapBegin => exact H.mapBegin _ _ _
  case mapEnd => exact H.mapEnd
  case listBegin => exact H.listBegin _ _
  case listEnd => exact H.listEnd
  case setBegin => exact H.setBegin _ _
  case setEnd => exact H.setEnd
  case bool => exact H.bool _
  case byte => exact H.byte _
  case i16 => exact H.i16 _
  case i32 => exact H.i32 _
  case i64 => exact H.i64 _
  case double => exact H.double _
  case string => exact H.string _
  case binary => exact H.binary _
  case flush => exact H.flush

/-- C63.  Over any transport, from any state, a write call of the binary or the
compact protocol that returns no error met no failed `Write` or `Flush`. -/
theorem C63_write_failures_reported :
    (∀ c, Reported id (binary.perform c)) ∧ ∀ f c, Reported id ((compact f).perform c) :=
  ⟨fun c => (binary_tells.perform c).reported, fun f c => ((compact_tells f).perform c).reported⟩

/-- A transport on which the `n`th write from now fails, and only that one, and
flushing fails or not. -/
def failing (flush : GoErr) : Transport Nat where
  read _ s := (.ok ([], some ⟨.other, 0, ascii "no"⟩), s)
  write bs s := if s = 0 then (.ok (0, some ⟨.other, 0, ascii "no"⟩), 1000) else (.ok (bs.length, none), s - 1)
  flush s := (.ok flush, s)

/-- Failures are met: the second write of a list header fails, and is reported. -/
example : (binary.perform (.listBegin TT.I32 3)).run (watched (failing none)) Bin.default (1, false) =
    (.ok (some ⟨.protocol, 0, ascii "no"⟩, Bin.default), (1000, true)) := by kernel_rfl

/-! ## C64: generated writers -/

/-- C64.  Writing a generated struct, a result struct or an application exception
without an error means that no `Write` failed, for every schema and value. -/
theorem C64_generated_write_failures_reported (S : Schema) (fuel : Nat) (sd : StructDef) (a : Attrs) (x : AppExc) (f : Nat) :
    (Reported id (genWrite binary S fuel sd a) ∧ Reported id (genWriteResult binary S fuel sd a) ∧ Reported id (appWrite binary x)) ∧
    (Reported id (genWrite (compact f) S fuel sd a) ∧ Reported id (genWriteResult (compact f) S fuel sd a) ∧
      Reported id (appWrite (compact f) x)) :=
  ⟨⟨(binary_tells.write fuel sd a).reported, (binary_tells.result fuel sd a).reported,
    (binary_tells.app (fun _ => P.Still.pure _) x).reported⟩,
   ⟨((compact_tells f).write fuel sd a).reported, ((compact_tells f).result fuel sd a).reported,
    ((compact_tells f).app (fun _ _ => trivial) x).reported⟩⟩

/-- Both outcomes occur. -/
example : ((genWrite binary sumSchema 10 (sumSchema.structs 0) [(1, .int32 5)]).run (watched (failing none)) Bin.default (2, false)).2 =
    (1000, true) := by kernel_rfl
example : (genWrite binary sumSchema 10 (sumSchema.structs 0) [(1, .int32 5)]).run (watched (failing none)) Bin.default (9, false) =
    (.ok (none, Bin.default), (5, false)) := by kernel_rfl

/-! ## C65: read calls -/

/-- C65. -/
def C65_statement : Prop :=
  (∀ c, Reported id (binary.fetch c)) ∧ ∀ f c, Reported id ((compact f).fetch c)

/-- One byte can be read, nothing after it. -/
def oneByte : Transport Bool where
  read _ s := if s then (.ok ([3], none), false) else (.ok ([], some ⟨.other, 0, ascii "no"⟩), false)
  write bs s := (.ok (bs.length, none), s)
  flush s := (.ok none, s)

/-- The compact protocol drops the error of reading the bytes of a string. -/
theorem C65_violated : ¬ C65_statement := by
  intro h
  have := h.2 10 .string oneByte Cmp.new Cmp.new true false none true (by kernel_rfl) rfl
  exact absurd this (by decide)

theorem Cmp.t_rlist (f : Nat) : P.Tells (·.2) (CompactProtocol.readListBegin f) := by
  refine P.Tells.step Cmp.t_r8 (fun _ h => h) fun x => ?_
  dsimp only
  split
  · exact P.Tells.step (r := fun y => ((TT.STOP, y.1), protocolFromOsError y.2)) (P.Tells.last (Cmp.t_rv32 f) fun _ h => h)
      (fun _ => fromOs_isSome) fun _ => P.Tells.ite (P.Tells.pure _) (P.Tells.pure _)
  · exact P.Tells.still (P.Still.pure _) fun _ => P.Tells.ite (P.Tells.pure _) (P.Tells.ite (P.Tells.pure _) (P.Tells.pure _))

theorem compact_fetch (f : Nat) (c : FetchCall) (h1 : c ≠ .string) (h2 : c ≠ .binary) (h3 : c ≠ .messageBegin) :
    P.Tells id ((compact f).fetch c) := by
  cases c
  case string => exact absurd rfl h1
  case binary => exact absurd rfl h2
  case messageBegin => exact absurd rfl h3
  case structBegin => exact P.Tells.last (P.Tells.still (P.Still.modify _) fun _ => P.Tells.pure _) fun _ h => h
  case structEnd =>
    refine P.Tells.still P.Still.get fun s => ?_
    split
    · exact P.Tells.panic
    · exact P.Tells.still (P.Still.modify _) fun _ => P.Tells.pure _
  case fieldBegin =>
    refine P.Tells.last (P.Tells.step Cmp.t_r8 (fun _ h => h) fun x => P.Tells.ite (P.Tells.pure _) (P.Tells.still P.Still.get fun s => ?_))
      fun _ h => h
    have hj (id : I16) : P.Tells (·.2) (match CompactProtocol.getTType (x.1 &&& 0x0f) with
        | (typeId, e) =>
          if e.isSome = true then (pure (([], typeId, id), protocolFromOsError e) : P Cmp ((Bytes × TType × I16) × GoErr))
          else if CompactProtocol.isBoolType x.1 = true then do
            P.modify fun s => { s with boolValue := x.1 &&& 0x0f = CompactProtocol.CT.BOOLEAN_TRUE, boolValueIsNotNull := true }
            P.modify fun s => { s with lastFieldId := id.toInt }
            return (([], typeId, id), none)
          else do
            P.modify fun s => { s with lastFieldId := id.toInt }
            return (([], typeId, id), none)) :=
      P.Tells.ite (P.Tells.pure _) (P.Tells.ite
        (P.Tells.still (P.Still.modify _) fun _ => P.Tells.still (P.Still.modify _) fun _ => P.Tells.pure _)
        (P.Tells.still (P.Still.modify _) fun _ => P.Tells.pure _))
    dsimp only
    split
    · exact P.Tells.step (r := fun y => (([], TT.STOP, y.1), y.2)) (Cmp.t_r16 f) (fun _ h => h) fun y => hj y.1
    · exact P.Tells.still (P.Still.pure _) fun y => P.Tells.ite (P.Tells.pure _) (hj y.1)
  case mapBegin =>
    refine P.Tells.last (P.Tells.step (Cmp.t_rv32 f) (fun _ => fromOs_isSome) fun x => ?_) fun _ h => h
    dsimp only
    split
    · exact P.Tells.step (r := fun y => ((TT.STOP, TT.STOP, x.1.toInt), y.2)) Cmp.t_r8 (fun _ h => h) fun _ => P.Tells.pure _
    · exact P.Tells.still (P.Still.pure _) fun _ => P.Tells.ite (P.Tells.pure _) (P.Tells.pure _)
  case listBegin => exact P.Tells.last (Cmp.t_rlist f) fun _ h => h
  case setBegin => exact P.Tells.last (Cmp.t_rlist f) fun _ h => h
  case bool =>
    exact P.Tells.last (P.Tells.still P.Still.get fun s => P.Tells.ite (P.Tells.still (P.Still.modify _) fun _ => P.Tells.pure _)
      (P.Tells.last Cmp.t_r8 fun _ h => h)) fun _ h => h
  case byte => exact P.Tells.last Cmp.t_r8 fun _ h => h
  case i16 => exact P.Tells.last (Cmp.t_r16 f) fun _ h => h
  case i32 => exact P.Tells.last (Cmp.t_r32 f) fun _ h => h
  case i64 => exact P.Tells.last (P.Tells.step (Cmp.t_rv64 f) (fun _ => fromOs_isSome) fun _ => P.Tells.pure _) fun _ h => h
  case double =>
    refine P.Tells.last (P.Tells.bind (P.Tells.readAll _) (fun x hx => ?_) fun _ => P.Tells.ite (P.Tells.pure _) (P.Tells.pure _)) fun _ h => h
    show P.Fails _ (if x.err.isSome = true then _ else _)
    rw [if_pos hx]
    exact P.Fails.pure (fromOs_isSome hx)
  all_goals exact P.Tells.pure _

/-- C65 for all read calls of the binary protocol and those of the compact protocol
that read no string.  Missing: `ReadString`, `ReadBinary` and `ReadMessageBegin` of
the compact protocol, for which it is false. -/
theorem C65_partial : (∀ c, Reported id (binary.fetch c)) ∧
    ∀ f c, c ≠ .string → c ≠ .binary → c ≠ .messageBegin → Reported id ((compact f).fetch c) :=
  ⟨fun c => (binary_fetch c).reported, fun f c h1 h2 h3 => (compact_fetch f c h1 h2 h3).reported⟩

/-- A failed read of a string is met and reported by the binary protocol. -/
example : (callResults ((binary.fetch .string).run (watched oneByte) Bin.default (true, false))).map Option.isSome = some true := by
  kernel_rfl

/-! ## C61: sending requests -/

/-- C61. -/
def C61_statement : Prop :=
  ∀ (S : Schema) (fuel : Nat) (m : Method) (a : Attrs),
    Reported id (Client.send binary S fuel m a) ∧ ∀ f, Reported id (Client.send (compact f) S fuel m a)

/-- A failed flush is not reported; with a buffered transport that is when the
request goes out. -/
theorem C61_violated : ¬ C61_statement := by
  intro h
  have := (h sumSchema 10 addMethod [(1, .int32 5)]).1 (failing (some ⟨.other, 0, ascii "no"⟩)) (Client.ofFactory Bin.default)
    { Client.ofFactory Bin.default with seqId := 1 } 99 91 none true (by kernel_rfl) rfl
  exact absurd this (by decide)

/-- Neither is a failed write of the message header. -/
theorem C61_header_violated : ¬ C61_statement := by
  intro h
  have := (h sumSchema 10 addMethod [(1, .int32 5)]).1 (failing none) (Client.ofFactory Bin.default)
    { Client.ofFactory Bin.default with seqId := 1 } 0 996 none true (by kernel_rfl) rfl
  exact absurd this (by decide)

theorem Client.out_run {m : P π α} {T : Transport σ} {c c' : Client π} {t t' : σ} {a : α} (h : (Client.out m).run T c t = (.ok (a, c'), t')) :
    ∃ o x, (m o).run T t = (.ok (a, x), t') := by
  change Prog.run T (match c.output with
    | none => Prog.panic
    | some o => (m o).bind fun (a, x) => .ret (a, { c with output := some x })) t = _ at h
  cases hc : c.output with
  | none => rw [hc] at h; simp [Prog.run] at h
  | some o =>
    rw [hc] at h
    dsimp only at h
    rw [Prog.run_bind] at h
    refine ⟨o, ?_⟩
    generalize (m o).run T t = r at h ⊢
    rcases r with ⟨⟨b, x⟩ | _ | _, y⟩
    · simp only [Prog.run, Prod.mk.injEq, Res.ok.injEq] at h
      exact ⟨x, by rw [h.1.1, h.2]⟩
    · simp at h
    · simp at h

/-- What a successful send did: the steps after the header. -/
theorem Client.send_run {p : Proto π} {T : Transport σ} {S : Schema} {fuel : Nat} {m : Method} {a : Attrs} {c c' : Client π} {t t' : σ}
    {err : GoErr} (h : (Client.send p S fuel m a).run T c t = (.ok (err, c'), t')) :
    ∃ o1 q r1 t1 o2 x2 t2 o3 r3 t3 e, (p.writeMessageBegin m.name CALL q o1).run T t = (.ok r1, t1) ∧
      (genWrite p S fuel (S.structs m.args) a o2).run T t1 = (.ok (err, x2), t2) ∧
      (p.writeMessageEnd o3).run T t2 = (.ok r3, t3) ∧ T.flush t3 = (.ok e, t') := by
  have inv {β γ : Type} {m : P (Client π) β} {f : β → P (Client π) γ} {c : Client π} {t : σ} {b : γ × Client π} {t' : σ}
      (h : (m >>= f).run T c t = (.ok b, t')) : ∃ a s t1, m.run T c t = (.ok (a, s), t1) ∧ (f a).run T s t1 = (.ok b, t') := by
    rw [P.run_bind] at h
    generalize m.run T c t = r at h ⊢
    rcases r with ⟨⟨a, s⟩ | _ | _, y⟩
    · exact ⟨a, s, y, rfl, h⟩
    · simp [andThen] at h
    · simp [andThen] at h
  unfold Client.send at h
  obtain ⟨_, c1, t1, h1, g⟩ := inv h
  clear h
  have e1 : t1 = t := by
    change Prog.run T (match c.output with
      | none => Prog.ret ((), c)
      | some _ => match c.factory with
        | none => Prog.panic
        | some f => Prog.ret ((), { c with output := some f })) t = _ at h1
    split at h1
    · simp only [Prog.run, Prod.mk.injEq] at h1; exact h1.2.symm
    · split at h1
      · simp [Prog.run] at h1
      · simp only [Prog.run, Prod.mk.injEq] at h1; exact h1.2.symm
  subst e1
  obtain ⟨_, c2, t2, h2, g⟩ := inv g
  cases h2
  obtain ⟨_, c3, t3, h3, g⟩ := inv g
  cases h3
  obtain ⟨_, c4, t4, h4, g⟩ := inv g
  obtain ⟨_, c5, t5, h5, g⟩ := inv g
  obtain ⟨_, c6, t6, h6, g⟩ := inv g
  obtain ⟨e, c7, t7, h7, g⟩ := inv g
  cases g
  obtain ⟨o1, x1, h4⟩ := Client.out_run h4
  obtain ⟨o2, x2, h5⟩ := Client.out_run h5
  obtain ⟨o3, x3, h6⟩ := Client.out_run h6
  refine ⟨o1, _, _, _, o2, _, _, o3, _, _, e, h4, h5, h6, ?_⟩
  change Prog.run T (Prog.flush fun e => Prog.ret (e, c6)) t6 = _ at h7
  rw [Prog.run] at h7
  generalize T.flush t6 = r at h7 ⊢
  rcases r with ⟨e' | _ | _, y⟩
  · simp only [Prog.run, Prod.mk.injEq, Res.ok.injEq] at h7
    rw [h7.1.1, h7.2]
  · simp at h7
  · simp at h7

/-- Sending, for protocols that report failures and write the stop of a struct. -/
theorem send_reports {π σ : Type} {p : Proto π} (H : p.Tells) (hs : P.Writes id p.writeFieldStop) (he : p.writeMessageEnd = pure none)
    {T : Transport σ} {broken : σ → Prop} (K : Sticky T broken) (hf : ∀ t, (T.flush t).1 = .ok none) (S : Schema) (fuel : Nat) (m : Method)
    (a : Attrs) (c c' : Client π) (t t' : σ) (failed : Bool)
    (h : (Client.send p S fuel m a).run (watched T) c (t, false) = (.ok (none, c'), (t', failed))) : failed = false := by
  obtain ⟨o1, q, r1, ⟨t1, f1⟩, o2, x2, ⟨t2, f2⟩, o3, r3, ⟨t3, f3⟩, e, h1, h2, h3, h4⟩ := Client.send_run h
  have k1 : f1 = false := by
    cases f1 with
    | false => rfl
    | true =>
      have hb := K.run _ (t, false) (by simp) (by rw [h1])
      rw [h1] at hb
      have := K.watched.fails (genWrite_writes hs fuel _ a o2) (H.write fuel _ a o2) (t1, true) _ _ hb h2
      exact absurd this Bool.false_ne_true
  subst k1
  have k2 : f2 = false := (H.write fuel _ a o2).watch T t1 t2 _ f2 h2 Bool.false_ne_true
  subst k2
  rw [he] at h3
  cases h3
  have hr : (watched T).flush (t2, false) = match T.flush t2 with
      | (.ok e, t) => (.ok e, (t, false || e.isSome))
      | (.panic, t) => (.panic, (t, false))
      | (.stuck, t) => (.stuck, (t, false)) := rfl
  rw [hr] at h4
  have := hf t2
  generalize T.flush t2 = r at h4 this
  obtain ⟨r, y⟩ := r
  cases this
  cases h4
  rfl

/-- C61 on connections that stay broken after a failure and whose flush does not
fail, as with an unbuffered socket.  Missing: failed flushes, and failures of the
header after which writing works again; for both it is false. -/
theorem C61_partial {σ : Type} {T : Transport σ} {broken : σ → Prop} (K : Sticky T broken) (hf : ∀ t, (T.flush t).1 = .ok none)
    (S : Schema) (fuel : Nat) (m : Method) (a : Attrs) (t t' : σ) (failed : Bool) :
    (∀ c c', (Client.send binary S fuel m a).run (watched T) c (t, false) = (.ok (none, c'), (t', failed)) → failed = false) ∧
    ∀ f c c', (Client.send (compact f) S fuel m a).run (watched T) c (t, false) = (.ok (none, c'), (t', failed)) → failed = false :=
  ⟨fun c c' => send_reports binary_tells (fun _ => trivial) rfl K hf S fuel m a c c' t t' failed,
   fun f c c' => send_reports (compact_tells f) (fun _ => trivial) rfl K hf S fuel m a c c' t t' failed⟩

/-- A connection that takes `n` more writes. -/
def closing : Transport Nat where
  read _ s := (.ok ([], none), s)
  write bs s := if s = 0 then (.ok (0, some ⟨.other, 0, ascii "no"⟩), 0) else (.ok (bs.length, none), s - 1)
  flush s := (.ok none, s)

/-- The hypotheses of `C61_partial` are met. -/
example : Sticky closing (· = 0) ∧ ∀ t, (closing.flush t).1 = .ok none := by
  refine ⟨⟨fun _ _ _ h => by simp [closing] at h, fun bs s n e h => ?_, fun _ _ h => by simp [closing] at h, fun _ _ h => h,
    fun bs s h => ?_, fun _ h => h, fun bs s h => ⟨0, ⟨.other, 0, ascii "no"⟩, by simp only [closing, h, if_true]⟩⟩, fun _ => rfl⟩
  · simp only [closing] at h ⊢
    split at h
    · rename_i h0; simp [h0]
    · simp at h
  · simp [closing, h]

end Thrift
