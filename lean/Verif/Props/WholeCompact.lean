import Verif.Props.WholeAnswer
import Verif.Lemmas.CompactService
import Verif.Props.CompactService
/-!
# C59 and C218 over other protocols
-/

namespace Thrift

/-- C59 over any protocol and transport, for messages of all types but EXCEPTION: a
message with another sequence id ends the call with BAD_SEQUENCE_ID, and both the
protocol and the transport are left as reading the head of the message left them. -/
theorem C59_any_partial {σ π : Type} (p : Proto π) (T : Transport σ) (S : Schema) (L : FloatLib) (mem : List Nat → Nat) (msd : Int) (fuel : Nat)
    (m : Method) (c : Client π) (i i' : π) (name : Bytes) (ty q : I32) (t t' : σ) (hc : c.input = some i)
    (h : p.readMessageBegin.run T i t = (.ok (((name, ty, q), none), i'), t')) (hx : ty ≠ EXCEPTION) (hq : q ≠ c.seqId) :
    (Client.recv p S L mem msd fuel m).run T c t =
      (.ok ((none, some ⟨.application, 4, ascii "ping failed: out of sequence response"⟩), { c with input := some i' }), t') := by
  have r0 : (Client.ensureInput : P (Client π) Unit).run T c t = (.ok ((), c), t) := by
    show (Client.ensureInput c : Prog _).run T t = _
    simp only [Client.ensureInput, hc]; rfl
  unfold Client.recv
  rw [P.run_bind, r0, andThen_ok, P.run_bind, Client.run_inp _ _ i hc, h]
  simp only [putBack_ok, andThen_ok, Option.isSome_none, Bool.false_eq_true, if_false, if_neg hx, P.run_bind, P.run_get,
    if_pos (Ne.symm hq), P.run_pure]
  rfl

section
variable {σ π : Type} {p : Proto π} {T : Transport σ} {inn out buf : σ → Bytes} {S : Schema} {L : FloatLib} {mem : List Nat → Nat} {msd : Int}
  {fuel : Nat} {m : Method} {c : Client π} {i i₁ i₂ i₃ : π} {name : Bytes} {ty q : I32} {a b : Bytes}

/-- A reply over any protocol. -/
theorem whole_any_reply (E : Endpoint T inn out buf) (hc : c.input = some i) (hx : ty ≠ EXCEPTION)
    (h1 : Runs p.readMessageBegin i i₁ a ((name, ty, c.seqId), none)) {r : Attrs}
    (h2 : Runs (genRead p S L mem msd fuel [] (S.structs m.result)) i₁ i₂ b (r, none)) {e : GoErr} (h3 : Runs p.readMessageEnd i₂ i₃ [] e)
    (t : σ) (rest : Bytes) (ht : inn t = a ++ b ++ rest) :
    ∃ t', (Client.recv p S L mem msd fuel m).run T c t = (.ok ((some r, none), { c with input := some i₃ }), t') ∧ inn t' = rest := by
  obtain ⟨t1, e1, i1, -⟩ := E.takes h1 t (b ++ rest) (by rw [ht, List.append_assoc])
  obtain ⟨t2, e2, i2, -⟩ := E.takes h2 t1 rest i1
  obtain ⟨t3, e3, i3, -⟩ := E.takes h3 t2 rest i2
  have r0 : (Client.ensureInput : P (Client π) Unit).run T c t = (.ok ((), c), t) := by
    show (Client.ensureInput c : Prog _).run T t = _
    simp only [Client.ensureInput, hc]; rfl
  refine ⟨t3, ?_, i3⟩
  unfold Client.recv
  rw [P.run_bind, r0, andThen_ok, P.run_bind, Client.run_inp _ _ i hc, e1]
  simp only [putBack_ok, andThen_ok, Option.isSome_none, Bool.false_eq_true, if_false, if_neg hx, P.run_bind, P.run_get, ne_eq, not_true]
  rw [Client.run_inp _ _ i₁ rfl, e2]
  simp only [putBack_ok, andThen_ok]
  rw [Client.run_inp _ _ i₂ rfl, e3]
  rfl

/-- An exception over any protocol. -/
theorem whole_any_exception (E : Endpoint T inn out buf) (hc : c.input = some i)
    (h1 : Runs p.readMessageBegin i i₁ a ((name, EXCEPTION, q), none)) {x : AppExc}
    (h2 : Runs (appRead p msd fuel) i₁ i₂ b (some x, none)) (h3 : Runs p.readMessageEnd i₂ i₃ [] none)
    (t : σ) (rest : Bytes) (ht : inn t = a ++ b ++ rest) :
    ∃ t', (Client.recv p S L mem msd fuel m).run T c t = (.ok ((none, some x.err), { c with input := some i₃ }), t') ∧ inn t' = rest := by
  obtain ⟨t1, e1, i1, -⟩ := E.takes h1 t (b ++ rest) (by rw [ht, List.append_assoc])
  obtain ⟨t2, e2, i2, -⟩ := E.takes h2 t1 rest i1
  obtain ⟨t3, e3, i3, -⟩ := E.takes h3 t2 rest i2
  have r0 : (Client.ensureInput : P (Client π) Unit).run T c t = (.ok ((), c), t) := by
    show (Client.ensureInput c : Prog _).run T t = _
    simp only [Client.ensureInput, hc]; rfl
  refine ⟨t3, ?_, i3⟩
  unfold Client.recv
  rw [P.run_bind, r0, andThen_ok, P.run_bind, Client.run_inp _ _ i hc, e1]
  simp only [putBack_ok, andThen_ok, Option.isSome_none, Bool.false_eq_true, if_false, if_true, P.run_bind]
  rw [Client.run_inp _ _ i₁ rfl, e2]
  simp only [putBack_ok, andThen_ok, Option.isSome_none, Bool.false_eq_true, if_false, P.run_bind]
  rw [Client.run_inp _ _ i₂ rfl, e3]
  rfl
end

/-- C218 over the compact protocol for exceptions with any sequence id, and for messages of
every other type that bear the sequence id of the call, without what the protocol loses
(C19).  The reader is ready for the next answer. -/
theorem C218_compact_partial {σ : Type} {T : Transport σ} {inn out buf : σ → Bytes} {S : Schema} (L : FloatLib) (mem : List Nat → Nat) (msd : Int)
    (m : Method) (fv : Nat) (c : Client Cmp) (i : Cmp) (name : Bytes) (ty q : I32) (fs : Fields) (E : Endpoint T inn out buf) (hS : S.Ok)
    (h10 : 10 ≤ fv) (hc : c.input = some i) (hi : i.boolValueIsNotNull = false) (hn : name.length < 2 ^ 31) (hty : ty.toNat < 4)
    (hr : AnswerReadable S L mem m ty fs) (hk : (Val.struct fs).Kept) (hw : ty = EXCEPTION ∨ q = c.seqId) :
    ∃ N i', i'.boolValueIsNotNull = false ∧ ∀ fuel, N ≤ fuel → ∀ t rest,
      inn t = CompactSpec.message name ty q ++ CompactSpec.encode (.struct fs) ++ rest →
      ∃ x t', (Client.recv (compact fv) S L mem msd fuel m).run T c t = (.ok (x, { c with input := some i' }), t') ∧ inn t' = rest := by
  have h1 := Cmp.reads_header fv name hn ty q hty i h10
  by_cases hx : ty = EXCEPTION
  · subst hx
    obtain ⟨i', hd, hk'⟩ := Cmp.dec_val fv h10 (.struct fs) i hi hr.1 hk.1
    rw [hk.2] at hd
    refine ⟨fs.size, i', hk'.1.1, fun fuel hf t rest ht => ?_⟩
    obtain ⟨t', e, it⟩ := whole_any_exception (S := S) (L := L) (mem := mem) (m := m) E hc h1 (Dec.app msd fs fuel hf hd) (Cmp.runs_end fv i') t rest ht
    exact ⟨_, t', e, it⟩
  · obtain ⟨hcf, r, hb⟩ := hr.2.resolve_left hx
    have hq := hw.resolve_left hx
    subst hq
    obtain ⟨i', hi', ri⟩ := Cmp.reads_object (msd := msd) fv h10 hS i hi (hS _) hr.1 hk hcf hb
    refine ⟨fs.size, i', hi', fun fuel hf t rest ht => ?_⟩
    obtain ⟨t', e, it⟩ := whole_any_reply (m := m) E hc hx h1 (ri fuel hf) (Cmp.runs_end fv i') t rest ht
    exact ⟨_, t', e, it⟩

/-- Over the compact protocol too, the rest of a late answer is left. -/
theorem C218_compact_violated {σ : Type} {T : Transport σ} {inn out buf : σ → Bytes} (S : Schema) (L : FloatLib) (mem : List Nat → Nat)
    (msd : Int) (fuel : Nat) (m : Method) (fv : Nat) (c : Client Cmp) (i : Cmp) (name : Bytes) (ty q : I32) (fs : Fields)
    (E : Endpoint T inn out buf) (h10 : 10 ≤ fv) (hc : c.input = some i) (hn : name.length < 2 ^ 31) (hty : ty.toNat < 4)
    (hx : ty ≠ EXCEPTION) (hq : q ≠ c.seqId) (t : σ) (rest : Bytes)
    (ht : inn t = CompactSpec.message name ty q ++ CompactSpec.encode (.struct fs) ++ rest) :
    ∃ t', (Client.recv (compact fv) S L mem msd fuel m).run T c t =
        (.ok ((none, some ⟨.application, 4, ascii "ping failed: out of sequence response"⟩), c), t') ∧
      inn t' = CompactSpec.encode (.struct fs) ++ rest := by
  obtain ⟨t1, e1, i1, -⟩ := E.takes (Cmp.reads_header fv name hn ty q hty i h10) t (CompactSpec.encode (.struct fs) ++ rest)
    (by rw [ht, List.append_assoc])
  have hc' : { c with input := some i } = c := by rw [← hc]
  refine ⟨t1, ?_, i1⟩
  rw [C59_any_partial (compact fv) T S L mem msd fuel m c i i name ty q t t1 hc e1 hx hq, hc']

/-! ## The hypotheses are met -/

example := C218_compact_partial noFloats (fun _ => 0) 64 addMethod 10 { Client.ofFactory Cmp.new with seqId := 1 } Cmp.new (ascii "add") REPLY 1
  (.cons 0 (.i32 8) .nil) pipe_client sumSchema_ok (by decide) rfl rfl (by decide) (by decide)
  ⟨⟨trivial, trivial⟩, .inr ⟨⟨fun m hm _ => by rw [List.mem_singleton.1 hm]; exact trivial, fun h => absurd h (by decide), trivial⟩, _, rfl⟩⟩
  ⟨by simp [Val.Tame, Fields.Tame, Val.structDepth], rfl⟩ (.inr rfl)

example (rest : Bytes) := C218_compact_violated sumSchema noFloats (fun _ => 0) 64 10 addMethod 10 { Client.ofFactory Cmp.new with seqId := 2 } Cmp.new
  (ascii "add") REPLY 1 (.cons 0 (.i32 8) .nil) pipe_client (by decide) rfl (by decide) (by decide) (by decide) (by decide) ([], _) rest rfl

example := C59_any_partial (compact 10) pipeClient sumSchema noFloats (fun _ => 0) 64 10 addMethod
  { Client.ofFactory Cmp.new with seqId := 2 } Cmp.new Cmp.new (ascii "add") REPLY 1 ([], CompactSpec.message (ascii "add") REPLY 1) ([], []) rfl
  (by kernel_rfl) (by decide) (by decide)

end Thrift
