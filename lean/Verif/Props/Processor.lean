import Verif.Props.Failures
/-!
# C94, C95: what `Process` tells its caller
-/

namespace Thrift

/-! ## C94: failures of the connection -/

/-- C94.  A call of `Process` that returns no error met no failure of the
transport. -/
def C94_statement : Prop :=
  ∀ (η : Type) (sv : Service η) (S : Schema) (L : FloatLib) (mem : List Nat → Nat) (msd : Int) (fuel : Nat),
    Reported (·.2) (process binary binary S L mem msd fuel sv) ∧
    ∀ f, Reported (·.2) (process (compact f) (compact f) S L mem msd fuel sv)

/-- A connection with the bytes to come; in between, reads fail. -/
def flickering : Transport (List (Option Byte)) where
  read n s := match n, s with
    | 0, s => (.ok ([], none), s)
    | _, [] => (.ok ([], some ⟨.eof, 0, ascii "EOF"⟩), [])
    | _, none :: r => (.ok ([], some ⟨.other, 0, ascii "no"⟩), r)
    | _, some b :: r => (.ok ([b], none), r)
  write bs s := (.ok (bs.length, none), s)
  flush s := (.ok none, s)

/-- A call of `add` with an unknown field, a list of one I64. -/
def flickeringCall : List (Option Byte) :=
  (([0x80, 1, 0, 1, 0, 0, 0, 3] ++ ascii "add" ++ [0, 0, 0, 0, 15, 0, 7, 10, 0, 0, 0, 1]).map some) ++ [none, some 0]

/-- C94 does not hold: a read that fails while an unknown list is skipped goes
unnoticed. -/
theorem C94_violated : ¬ C94_statement := by
  intro h
  have := (h I32 sumService sumSchema noFloats (fun _ => 0) 64 10).1 flickering ⟨Bin.default, Bin.default, 5⟩ ⟨Bin.default, Bin.default, 5⟩
    flickeringCall [] (true, none) true (by kernel_rfl) rfl
  exact absurd this (by decide)

/-- A program whose results on sticky connections, unless `bad`, mean that nothing
failed. -/
def Prog.Safe (bad : α → Prop) (p : Prog α) : Prop :=
  ∀ {σ : Type} {T : Transport σ} {broken : σ → Prop}, Sticky T broken → ∀ (t t' : σ) (f f' : Bool) (a : α),
    (f = true → broken t) → p.run (watched T) (t, f) = (.ok a, (t', f')) → ¬ bad a → f' = false

theorem Prog.Safe.all {p : Prog α} {bad : α → Prop} (h : p.All bad) : p.Safe bad :=
  fun _ _ _ _ _ a _ hr hn => absurd (h.run _ _ _ a hr) hn

theorem Prog.Safe.last {p : Prog α} {bad : α → Prop} (hw : p.Writes bad) (ht : p.Tells bad) : p.Safe bad := by
  intro σ T broken K t t' f f' a hb hr hn
  cases f with
  | true => exact absurd (K.watched.fails hw ht (t, true) _ a (hb rfl) hr) hn
  | false => exact ht.watch T t t' a f' hr hn

theorem Prog.Safe.bind {p : Prog α} {f : α → Prog β} {bad : β → Prop} (h : ∀ a, (f a).Safe bad) : (p.bind f).Safe bad := by
  intro σ T broken K t t' g g' b hb hr hn
  rw [Prog.run_bind] at hr
  have hs := K.run p (t, g) hb
  generalize p.run (watched T) (t, g) = r at hr hs
  rcases r with ⟨a | _ | _, ⟨t1, g1⟩⟩
  · exact h a K t1 t' g1 g' b hs hr hn
  · simp at hr
  · simp at hr

def P.Safe (err : α → GoErr) (m : P π α) : Prop := ∀ s, (m s).Safe fun a => (err a.1).isSome = true

theorem P.Safe.bind {m : P π α} {f : α → P π β} {err : β → GoErr} (h : ∀ a, P.Safe err (f a)) : P.Safe err (m >>= f) :=
  fun s => Prog.Safe.bind (p := m s) fun a => h a.1 a.2

theorem P.Safe.fails {m : P π α} {err : α → GoErr} (h : P.Fails err m) : P.Safe err m := fun s => Prog.Safe.all (h s)

theorem P.Tells.on {m : P π α} {err : α → GoErr} (h : P.Tells err m) (get : τ → π) (set : π → τ → τ) : P.Tells err (P.on get set m) :=
  fun s => Prog.Tells.bind (h (get s)) (fun _ ha => ha) fun _ => trivial

theorem P.Writes.on {m : P π α} {err : α → GoErr} (h : P.Writes err m) (get : τ → π) (set : π → τ → τ) : P.Writes err (P.on get set m) :=
  fun s => Prog.Writes.bind (h (get s)) fun _ ha => ha

theorem firstErr_left {a b : GoErr} (h : a.isSome = true) : (firstErr a b).isSome = true := by
  rw [firstErr, if_pos h]; exact h

theorem firstErr_right {a b : GoErr} (h : b.isSome = true) : (firstErr a b).isSome = true := by
  rw [firstErr]
  split
  · assumption
  · exact h

section
variable {ι ω : Type} {ip : Proto ι} {op : Proto ω} {S : Schema} {L : FloatLib} {mem : List Nat → Nat} {msd : Int} {fuel : Nat}

theorem sendReply_tells (H : op.Tells) (m : Method) (r : Attrs) (q : I32) : P.Tells id (sendReply op S fuel m r q) := by
  refine P.Tells.bind (H.messageBegin _ _ _) (fun e he => ?_) fun e => ?_
  · exact .bind fun _ => .bind fun _ => .bind fun _ => .pure (firstErr_left (firstErr_left (firstErr_left he)))
  refine P.Tells.bind (H.result fuel _ _) (fun e he => ?_) fun e => ?_
  · exact .bind fun _ => .bind fun _ => .pure (firstErr_left (firstErr_left (firstErr_right he)))
  refine P.Tells.bind H.messageEnd (fun e he => ?_) fun e => ?_
  · exact .bind fun _ => .pure (firstErr_left (firstErr_right he))
  exact P.Tells.bind P.Tells.flush (fun e he => .pure (firstErr_right he)) fun _ => .pure _

theorem sendReply_writes (hw : ∀ n t q, P.Writes id (op.writeMessageBegin n t q)) (m : Method) (r : Attrs) (q : I32) :
    P.Writes id (sendReply op S fuel m r q) := fun s =>
  Prog.Writes.bind (hw _ _ _ s) fun _ ha =>
    Prog.Writes.bind (Prog.Writes.top _) fun _ _ => Prog.Writes.bind (Prog.Writes.top _) fun _ _ =>
      Prog.Writes.bind (Prog.Writes.top _) fun _ _ => firstErr_left (firstErr_left (firstErr_left ha))

theorem process_safe {η : Type} (H : op.Tells) (hw : ∀ n t q, P.Writes id (op.writeMessageBegin n t q)) (sv : Service η) :
    P.Safe (·.2) (process ip op S L mem msd fuel sv) := by
  refine .bind fun ((name, t, q), err) => ?_
  dsimp only
  by_cases he : err.isSome = true
  · rw [if_pos he]
    exact .fails (.pure he)
  rw [if_neg he]
  cases sv.find name with
  | none => exact .fails (.bind fun _ => .bind fun _ => .bind fun _ => .pure rfl)
  | some m =>
    refine .bind fun (args, err) => ?_
    cases err with
    | some e => exact .fails (.bind fun _ => .bind fun _ => .pure rfl)
    | none =>
      refine .bind fun _ => .bind fun s => ?_
      dsimp only
      refine .bind fun _ => ?_
      cases (sv.handle m s.handler args).1.2 with
      | some e => exact .fails (.bind fun _ => .pure rfl)
      | none =>
        refine fun s => Prog.Safe.last ?_ ?_
        · exact Prog.Writes.bind ((sendReply_writes hw m _ q).on _ _ s) fun a ha => ha
        · exact Prog.Tells.bind ((sendReply_tells H m _ q).on _ _ s) (fun a ha => ha) fun _ => trivial

end

theorem binary_header_writes (n : Bytes) (t : TMessageType) (q : I32) : P.Writes id (binary.writeMessageBegin n t q) := by
  intro s
  show Prog.Writes _ (BinaryProtocol.writeMessageBegin n t q s)
  unfold BinaryProtocol.writeMessageBegin
  refine Prog.Writes.bind (Prog.Writes.top _) fun a _ => ?_
  show Prog.Writes _ ((if a.1.strictWrite = true then _ else _ : P Bin GoErr) _)
  split <;> trivial

/-- C94 for the reply: whatever the transport does, a reply that is sent without
an error met no failure, for every schema, method and result. -/
theorem C94_reply_partial (S : Schema) (fuel : Nat) (m : Method) (r : Attrs) (q : I32) :
    Reported id (sendReply binary S fuel m r q) ∧ ∀ f, Reported id (sendReply (compact f) S fuel m r q) :=
  ⟨(sendReply_tells binary_tells m r q).reported, fun f => (sendReply_tells (compact_tells f) m r q).reported⟩

/-- C94 on connections that stay broken after a failure.  Missing: failures after
which the connection works again; for those it is false. -/
theorem C94_partial {σ η : Type} {T : Transport σ} {broken : σ → Prop} (K : Sticky T broken) (sv : Service η) (S : Schema)
    (L : FloatLib) (mem : List Nat → Nat) (msd : Int) (fuel : Nat) (t t' : σ) (ok failed : Bool) :
    (∀ s s', (process binary binary S L mem msd fuel sv).run (watched T) s (t, false) = (.ok ((ok, none), s'), (t', failed)) →
      failed = false) ∧
    ∀ f s s', (process (compact f) (compact f) S L mem msd fuel sv).run (watched T) s (t, false) = (.ok ((ok, none), s'), (t', failed)) →
      failed = false :=
  ⟨fun s s' h => process_safe binary_tells binary_header_writes sv s K t t' false failed _ (by simp) h (by simp),
   fun f s s' h => process_safe (compact_tells f) (fun _ _ _ _ => trivial) sv s K t t' false failed _ (by simp) h (by simp)⟩

/-- A connection that takes `n` more writes and then is closed. -/
def cutOff : Transport (List Byte × Nat) where
  read n s := if s.2 = 0 then (.ok ([], some ⟨.other, 0, ascii "no"⟩), s) else (.ok (s.1.take n, none), (s.1.drop n, s.2))
  write bs s := if s.2 = 0 then (.ok (0, some ⟨.other, 0, ascii "no"⟩), s) else (.ok (bs.length, none), (s.1, s.2 - 1))
  flush s := (.ok none, s)

/-- The hypotheses of `C94_partial` are met. -/
example : Sticky cutOff (·.2 = 0) := by
  refine ⟨fun n s e h => ?_, fun bs s n e h => ?_, fun _ _ h => by simp [cutOff] at h, fun n s h => ?_, fun bs s h => ?_,
    fun _ h => h, fun bs s h => ⟨0, ⟨.other, 0, ascii "no"⟩, by simp only [cutOff, h, if_true]⟩⟩
  · simp only [cutOff] at h ⊢
    split at h
    · rename_i h0; simp [h0]
    · simp at h
  · simp only [cutOff] at h ⊢
    split at h
    · rename_i h0; simp [h0]
    · simp at h
  · simp only [cutOff, h, if_true]
  · simp only [cutOff, h, if_true]

/-- With enough room for the reply `Process` succeeds, otherwise it says so. -/
example : let call := [0x80, 1, 0, 1, 0, 0, 0, 3] ++ ascii "add" ++ [0, 0, 0, 0, 0]
    let run n := callResults ((process binary binary sumSchema noFloats (fun _ => 0) 64 10 sumService).run (watched cutOff)
      ⟨Bin.default, Bin.default, 5⟩ ((call, n), false))
    run 99 = some (true, none) ∧ (run 3).map (·.2.isSome) = some true := by
  constructor <;> kernel_rfl

/-! ## C95: what is returned -/

/-- `Process` returns true exactly when it returns no error, for all protocols,
services and connections. -/
theorem C95_ok_iff_no_error {ι ω η σ : Type} (ip : Proto ι) (op : Proto ω) (S : Schema) (L : FloatLib) (mem : List Nat → Nat) (msd : Int)
    (fuel : Nat) (sv : Service η) (T : Transport σ) (s s' : Server ι ω η) (t t' : σ) (ok : Bool) (err : GoErr)
    (h : (process ip op S L mem msd fuel sv).run T s t = (.ok ((ok, err), s'), t')) : ok = true ↔ err = none := by
  have key : ∀ s, (process ip op S L mem msd fuel sv s).All fun a => a.1.1 = a.1.2.isNone := by
    have bind {β γ : Type} {m : P (Server ι ω η) β} {f : β → P (Server ι ω η) γ} {Q : γ × Server ι ω η → Prop}
        (h : ∀ a s, (f a s).All Q) (s) : ((m >>= f) s).All Q := Prog.All.bind (Prog.All.top (m s)) fun a _ => h a.1 a.2
    refine bind fun ((name, t, q), err) => ?_
    dsimp only
    by_cases he : err.isSome = true
    · rw [if_pos he]
      intro s
      cases err with
      | none => cases he
      | some e => exact rfl
    rw [if_neg he]
    cases sv.find name with
    | none => exact bind fun _ => bind fun _ => bind fun _ _ => rfl
    | some m =>
      refine bind fun (args, err) => ?_
      cases err with
      | some e => exact bind fun _ => bind fun _ _ => rfl
      | none =>
        refine bind fun _ => bind fun s => ?_
        dsimp only
        refine bind fun _ => ?_
        cases (sv.handle m s.handler args).1.2 with
        | some e => exact bind fun _ _ => rfl
        | none => exact bind fun _ _ => rfl
  have := (key s).run T t t' _ h
  simp only at this
  rw [this]
  cases err <;> simp

/-- If the message header cannot be read, `Process` returns that error, calls no
handler and sends nothing. -/
theorem C95_header_error {ι ω η σ : Type} (ip : Proto ι) (op : Proto ω) (S : Schema) (L : FloatLib) (mem : List Nat → Nat) (msd : Int)
    (fuel : Nat) (sv : Service η) (T : Transport σ) (s : Server ι ω η) (i : ι) (t t' : σ) (x : Bytes × TMessageType × I32) (e : Err)
    (h : ip.readMessageBegin.run T s.iprot t = (.ok ((x, some e), i), t')) :
    (process ip op S L mem msd fuel sv).run T s t = (.ok ((false, some e), { s with iprot := i }), t') := by
  have h1 : (P.input (ω := ω) (η := η) ip.readMessageBegin).run T s t = (.ok ((x, some e), { s with iprot := i }), t') := by
    change Prog.run T ((ip.readMessageBegin s.iprot).bind _) t = _
    change Prog.run T (ip.readMessageBegin s.iprot) t = _ at h
    rw [Prog.run_bind, h]
    rfl
  rw [process, P.run_bind, h1]
  rfl

example : (process binary binary sumSchema noFloats (fun _ => 0) 64 10 sumService).run memory ⟨Bin.default, Bin.default, 5⟩ [0x80, 2, 0, 1] =
    (.ok ((false, some ⟨.protocol, BAD_VERSION, ascii "Bad version in ReadMessageBegin"⟩), ⟨Bin.default, Bin.default, 5⟩), []) := by kernel_rfl

end Thrift
