import Verif.Props.Service
import Verif.Lemmas.KernelRfl
import Verif.Props.Places
import Verif.Lemmas.ReadTotal
/-!
# What a client takes for an answer

C215: the messages that a client takes for the reply to its call.  C216: replies that
hold no result.
-/

namespace Thrift

/-! ## C215: only the reply to the call -/

/-- The protocol from which `Recv…` reads. -/
def Client.reader (c : Client π) : Option π := c.input.or c.factory

/-- C215.  Over any protocol and transport, a client delivers a result only from a
message of type REPLY that bears the name of the method and the sequence id of the
call. -/
def C215_statement : Prop :=
  ∀ {σ π : Type} (p : Proto π) (T : Transport σ) (S : Schema) (L : FloatLib) (mem : List Nat → Nat) (msd : Int) (fuel : Nat) (m : Method)
    (c : Client π) (t : σ) (r : Attrs) (e : GoErr) (c' : Client π) (t' : σ),
    (Client.recv p S L mem msd fuel m).run T c t = (.ok ((some r, e), c'), t') →
    ∃ i i' t₁, c.reader = some i ∧ p.readMessageBegin.run T i t = (.ok (((m.name, REPLY, c.seqId), none), i'), t₁)

/-- What a client makes of a message does not depend on its name or type, unless it
is of type EXCEPTION: it treats each as a reply to its call. -/
theorem C215_any_violated (S : Schema) (L : FloatLib) (mem : List Nat → Nat) (msd : Int) (fuel : Nat) (m : Method)
    (c : Client Bin) (i : Bin) (hc : c.input = some i) (strict : Bool) (name : Bytes) (ty : I32) (hn : name.length < 2 ^ 31)
    (hm : m.name.length < 2 ^ 31) (hty : ty.toNat < 256) (hx : ty ≠ EXCEPTION) (hi : i.checkReadLength = false)
    (hs : strict = true ∨ i.strictRead = false) (q : I32) (rest : Bytes) :
    (Client.recv binary S L mem msd fuel m).run pipeClient c ([], BinarySpec.message strict name ty q ++ rest) =
    (Client.recv binary S L mem msd fuel m).run pipeClient c ([], BinarySpec.message strict m.name REPLY q ++ rest) := by
  have key : ∀ (name : Bytes) (ty : I32), name.length < 2 ^ 31 → ty.toNat < 256 → binary.readMessageBegin.run pipeClient i
      ([], BinarySpec.message strict name ty q ++ rest) = (.ok (((name, ty, q), none), i), ([], rest)) := by
    intro name ty hn hty
    obtain ⟨t1, e1, i1, o1⟩ := pipe_client.takes (Bin.reads_header strict name ty q hn hty i hi hs) ([], _) rest rfl
    rw [show t1 = ([], rest) from Prod.ext (by simpa using o1) i1] at e1
    exact e1
  have r0 : ∀ t, (Client.ensureInput : P (Client Bin) Unit).run pipeClient c t = (.ok ((), c), t) := fun t => by
    show (Client.ensureInput c : Prog _).run pipeClient t = _
    simp only [Client.ensureInput, hc]; rfl
  unfold Client.recv
  rw [P.run_bind, r0, andThen_ok, P.run_bind, Client.run_inp _ _ i hc, key name ty hn hty, P.run_bind, r0, andThen_ok, P.run_bind,
    Client.run_inp _ _ i hc, key m.name REPLY hm (by decide)]
  simp only [putBack_ok, andThen_ok, Option.isSome_none, Bool.false_eq_true, if_false, if_neg hx, if_neg (show ¬ REPLY = EXCEPTION by decide)]

/-- The client that made the first call. -/
def firstCall : Client Bin := { Client.ofFactory Bin.default with seqId := 1 }

/-- A call of another method, not a reply, delivers a result. -/
theorem answers_call : (Client.recv binary sumSchema noFloats (fun _ => 0) 64 10 addMethod).run pipeClient firstCall
    ([], BinarySpec.message true (ascii "sub") CALL 1 ++ BinarySpec.encode (.struct (.cons 0 (.i32 8) .nil))) =
    (.ok ((some [(0, .int32 8)], none), firstCall), ([], [])) := by kernel_rfl

theorem C215_violated : ¬ C215_statement := by
  intro h
  obtain ⟨i, i', t₁, hi, hr⟩ := h binary pipeClient sumSchema noFloats (fun _ => 0) 64 10 addMethod firstCall _ _ _ _ _ answers_call
  have hi : i = Bin.default := (Option.some.inj hi).symm
  subst hi
  obtain ⟨t1, e1, i1, o1⟩ := pipe_client.takes (Bin.reads_header true (ascii "sub") CALL 1 (by decide) (by decide) Bin.default rfl (.inl rfl))
    ([], _) _ rfl
  have : (Res.ok (((addMethod.name, REPLY, firstCall.seqId), (none : GoErr)), i'), t₁) = (Res.ok (((ascii "sub", CALL, 1), none), Bin.default), t1) :=
    hr.symm.trans e1
  simp only [Prod.mk.injEq, Res.ok.injEq] at this
  exact absurd this.1.1.1.2.1 (by decide)

/-- Says whether a result was delivered. -/
def gotten (x : Option Attrs × GoErr) : GoErr := x.1.map fun _ => ⟨.other, 0, []⟩

/-- C215 for the sequence id, over any protocol and transport; the message is no
exception.  What is missing are the name and the type. -/
theorem C215_partial {σ π : Type} (p : Proto π) (T : Transport σ) (S : Schema) (L : FloatLib) (mem : List Nat → Nat) (msd : Int) (fuel : Nat)
    (m : Method) (c : Client π) (t : σ) (r : Attrs) (e : GoErr) (c' : Client π) (t' : σ)
    (h : (Client.recv p S L mem msd fuel m).run T c t = (.ok ((some r, e), c'), t')) :
    ∃ i i' t₁ name ty, c.reader = some i ∧ p.readMessageBegin.run T i t = (.ok (((name, ty, c.seqId), none), i'), t₁) ∧ ty ≠ EXCEPTION := by
  have r0 : ∀ i, c.reader = some i → (Client.ensureInput : P (Client π) Unit).run T c t = (.ok ((), { c with input := some i }), t) := fun i hi => by
    show (Client.ensureInput c : Prog _).run T t = _
    unfold Client.reader at hi
    cases hc : c.input with
    | some j =>
      rw [hc] at hi
      have hi : j = i := Option.some.inj hi
      subst hi
      have hc' : { c with input := some j } = c := by rw [← hc]
      rw [hc']
      simp only [Client.ensureInput, hc]; rfl
    | none =>
      rw [hc] at hi
      have hi : c.factory = some i := hi
      simp only [Client.ensureInput, hc, hi]; rfl
  cases hi : c.reader with
  | none =>
    exfalso
    have : c.input = none ∧ c.factory = none := by
      unfold Client.reader at hi
      cases hc : c.input <;> rw [hc] at hi
      · exact ⟨rfl, hi⟩
      · cases hi
    have hp : (Client.ensureInput : P (Client π) Unit).run T c t = (.panic, t) := by
      show (Client.ensureInput c : Prog _).run T t = _
      simp only [Client.ensureInput, this.1, this.2]; rfl
    unfold Client.recv at h
    rw [P.run_bind, hp] at h
    cases h
  | some i =>
    unfold Client.recv at h
    rw [P.run_bind, r0 i hi, andThen_ok, P.run_bind, Client.run_inp _ _ i rfl] at h
    generalize hx : p.readMessageBegin.run T i t = x at h
    obtain ⟨x, t₁⟩ := x
    cases x with
    | panic => cases h
    | stuck => cases h
    | ok x =>
      obtain ⟨⟨⟨name, ty, q⟩, er⟩, i'⟩ := x
      simp only [putBack_ok, andThen_ok] at h
      have bad : ∀ (x : P (Client π) (Option Attrs × GoErr)) (s : Client π), Errs x gotten (fun _ => False) →
          x.run T s t₁ = (.ok ((some r, e), c'), t') → False := fun x s hx hr => hx σ T s t₁ _ _ _ ⟨.other, 0, []⟩ hr rfl
      have leave : ∀ er : GoErr, Errs (Pure.pure (none, er) : P (Client π) (Option Attrs × GoErr)) gotten (fun _ => False) := fun er =>
        Errs.pure fun _ h => nomatch h
      cases er with
      | some er => exact (bad _ _ (leave _) h).elim
      | none =>
        simp only [Option.isSome_none, Bool.false_eq_true, if_false] at h
        by_cases hty : ty = EXCEPTION
        · rw [if_pos hty] at h
          refine (bad _ _ ?_ h).elim
          refine Errs.bind fun x => ?_
          obtain ⟨x, er⟩ := x
          refine Errs.ite (fun _ => leave _) fun _ => Errs.bind fun er => Errs.ite (fun _ => leave _) fun _ => leave _
        · rw [if_neg hty, P.run_bind, P.run_get, andThen_ok] at h
          by_cases hq : c.seqId = q
          · exact ⟨i, i', t₁, name, ty, rfl, by rw [hq, hx], hty⟩
          · rw [if_pos hq] at h
            exact (bad _ _ (leave _) h).elim

/-- There are such runs: a reply delivers what it holds. -/
example : (Client.recv binary sumSchema noFloats (fun _ => 0) 64 10 addMethod).run pipeClient firstCall
    ([], BinarySpec.message true (ascii "add") REPLY 1 ++ BinarySpec.encode (.struct (.cons 0 (.i32 8) .nil))) =
    (.ok ((some [(0, .int32 8)], none), firstCall), ([], [])) := by kernel_rfl

/-! ## C216: replies without a result -/

/-- C216.  A reply that holds no field at all is not taken for the result of a method
that returns a value: the call ends with an error. -/
def C216_statement : Prop :=
  ∀ (S : Schema) (L : FloatLib) (mem : List Nat → Nat) (msd : Int) (m : Method) (c : Client Bin) (i : Bin) (q : I32) (rest : Bytes),
    S.Ok → (∃ x ∈ (S.structs m.result).members, x.id = 0) → c.input = some i → c.seqId = q → i.checkReadLength = false → m.name.length < 2 ^ 31 →
    ∃ N, ∀ fuel, N ≤ fuel → ∃ r e c' t',
      (Client.recv binary S L mem msd fuel m).run pipeClient c ([], BinarySpec.message true m.name REPLY q ++ BinarySpec.encode (.struct .nil) ++ rest) =
        (.ok ((r, some e), c'), t')

theorem read_nothing (S : Schema) (L : FloatLib) (mem : List Nat → Nat) (msd : Int) (fuel : Nat) (sd : StructDef) (i : Bin)
    (hi : i.checkReadLength = false) : Runs (genRead binary S L mem msd (fuel + 1) [] sd) i i [0] (sd.fresh S, none) := by
  have hf : Runs (genReadFields binary (fun fn sn m => genReadVal binary S L mem msd (fuel + 1) (m.id.toNat :: []) fn sn m.ty)
      (skipDefaultDepth binary msd (fuel + 1)) sd (fuel + 1) (sd.fresh S)) i i [0] (sd.fresh S, none) := by
    simp only [genReadFields]
    refine Runs.bind' (Bin.reads_fieldStop i hi) ?_
    simp only [Option.isSome_none, Bool.false_eq_true, if_false, Bin.resolved_stop sd _ _ _ rfl, if_true]
    exact Runs.pure _ _
  unfold genRead genReadInto genReadBody
  refine Runs.congr (Runs.bind (a := []) (b := [0]) (r := ([], none)) (s' := i) (fun _ _ => rfl) ?_) (by simp)
  simp only [Option.isSome_none, Bool.false_eq_true, if_false]
  refine Runs.bind' hf ?_
  simp only [Option.isSome_none, Bool.false_eq_true, if_false]
  refine Runs.congr (Runs.bind (a := []) (b := []) (r := none) (s' := i) (fun _ _ => rfl) (Runs.pure _ _)) (by simp)

/-- Whatever the method: a reply without any field is taken for a result, whose fields
are those of a new object, and there is no error. -/
theorem C216_always_violated (S : Schema) (L : FloatLib) (mem : List Nat → Nat) (msd : Int) (m : Method) (c : Client Bin) (i : Bin)
    (hc : c.input = some i) (hi : i.checkReadLength = false) (hm : m.name.length < 2 ^ 31) (fuel : Nat) (rest : Bytes) :
    (Client.recv binary S L mem msd (fuel + 1) m).run pipeClient c
      ([], BinarySpec.message true m.name REPLY c.seqId ++ BinarySpec.encode (.struct .nil) ++ rest) =
      (.ok ((some ((S.structs m.result).fresh S), none), c), ([], rest)) := by
  obtain ⟨t1, e1, i1, o1⟩ := pipe_client.takes (Bin.reads_header true m.name REPLY c.seqId hm (by decide) i hi (.inl rfl)) ([], _)
    (BinarySpec.encode (.struct .nil) ++ rest) (List.append_assoc ..)
  obtain ⟨t2, e2, i2, o2⟩ := pipe_client.takes (read_nothing S L mem msd fuel (S.structs m.result) i hi) t1 rest i1
  have ht : t2 = ([], rest) := Prod.ext (by simpa using o2.trans o1) i2
  have r0 : ∀ t, (Client.ensureInput : P (Client Bin) Unit).run pipeClient c t = (.ok ((), c), t) := fun t => by
    show (Client.ensureInput c : Prog _).run pipeClient t = _
    simp only [Client.ensureInput, hc]; rfl
  have hc' : { c with input := some i } = c := by rw [← hc]
  have r3 : ∀ t, (Client.inp binary.readMessageEnd).run pipeClient c t = (.ok (none, c), t) := fun t => by
    rw [Client.run_inp _ _ i hc]
    show putBack _ (Res.ok (none, i), t) = _
    rw [putBack_ok, hc']
  unfold Client.recv
  rw [P.run_bind, r0, andThen_ok, P.run_bind, Client.run_inp _ _ i hc, e1]
  simp only [putBack_ok, andThen_ok, Option.isSome_none, Bool.false_eq_true, if_false, if_neg (show ¬ REPLY = EXCEPTION by decide), hc']
  rw [P.run_bind, P.run_get, andThen_ok, if_neg (fun h => h rfl), P.run_bind, Client.run_inp _ _ i hc, e2]
  simp only [putBack_ok, andThen_ok, hc', P.run_bind, r3, P.run_pure, ht]

theorem C216_violated : ¬ C216_statement := by
  intro h
  obtain ⟨N, h⟩ := h sumSchema noFloats (fun _ => 0) 64 addMethod firstCall Bin.default 1 [] sumSchema_ok ⟨_, List.mem_singleton.2 rfl, rfl⟩
    rfl rfl rfl (by decide)
  obtain ⟨r, e, c', t', h⟩ := h (N + 1) (by omega)
  have h2 := C216_always_violated sumSchema noFloats (fun _ => 0) 64 addMethod firstCall Bin.default rfl rfl (by decide) N []
  rw [show firstCall.seqId = 1 from rfl] at h2
  rw [h2] at h
  simp at h

/-- C216 as far as it goes: after a reply without any field the caller holds `nil` for
every result or exception of a type that has a `nil` and no default value.  What is
missing is an error; and a number or text that was never sent cannot be told from zero. -/
theorem C216_partial (S : Schema) (hS : S.Ok) (L : FloatLib) (mem : List Nat → Nat) (msd : Int) (m : Method) (c : Client Bin) (i : Bin)
    (hc : c.input = some i) (hi : i.checkReadLength = false) (hm : m.name.length < 2 ^ 31) (fuel : Nat) (rest : Bytes) :
    ∃ r, (Client.recv binary S L mem msd (fuel + 1) m).run pipeClient c
      ([], BinarySpec.message true m.name REPLY c.seqId ++ BinarySpec.encode (.struct .nil) ++ rest) = (.ok ((some r, none), c), ([], rest)) ∧
      ∀ x ∈ (S.structs m.result).members, x.ty.Nilable → x.dflt = none → attributeOf r x.id.toInt = .nil := by
  refine ⟨_, C216_always_violated S L mem msd m c i hc hi hm fuel rest, fun x hx hn hd => ?_⟩
  rw [attributeOf_fresh (hS m.result) hx]
  unfold Member.initial
  rw [hd]
  cases hx : x.ty <;> rw [hx] at hn <;> first | rfl | exact hn.elim

/-- A method that returns a struct: the caller gets `nil` and no error. -/
example : (Client.recv binary placeSchema noFloats (fun _ => 0) 64 10 ⟨ascii "get", 2, 1, false⟩).run pipeClient firstCall
    ([], BinarySpec.message true (ascii "get") REPLY 1 ++ BinarySpec.encode (.struct .nil)) =
    (.ok ((some [(1, .nil)], none), firstCall), ([], [])) := by kernel_rfl

example : ∃ x ∈ (placeSchema.structs 1).members, x.ty.Nilable ∧ x.dflt = none :=
  ⟨_, List.mem_singleton.2 rfl, by trivial, rfl⟩

example (rest : Bytes) := C215_any_violated sumSchema noFloats (fun _ => 0) 64 10 addMethod firstCall Bin.default rfl true (ascii "sub") CALL
  (by decide) (by decide) (by decide) (by decide) rfl (.inl rfl) 1 rest

end Thrift
