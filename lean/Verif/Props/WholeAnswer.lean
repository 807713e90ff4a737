import Verif.Props.Answers
import Verif.Props.Exceptions
import Verif.Props.Versions
/-!
# C218: an answer is taken off the connection whole
-/

namespace Thrift

/-- An answer that a client can read: an exception may hold any fields; the fields of a
result have the declared types and hold values that fit. -/
def AnswerReadable (S : Schema) (L : FloatLib) (mem : List Nat → Nat) (m : Method) (ty : I32) (fs : Fields) : Prop :=
  fs.WF ∧ (ty = EXCEPTION ∨ fs.Conforms S (S.structs m.result) ∧
    ∃ r, buildFields S L mem fs [] (S.structs m.result) ((S.structs m.result).fresh S) = .ok r)

/-- C218 for some answers.  Whatever answer arrives, over any transport, the call takes it
off the connection whole: what follows the answer is what the next call finds. -/
def C218_for (which : I32 → I32 → I32 → Prop) : Prop :=
  ∀ {σ : Type} (T : Transport σ) (inn out buf : σ → Bytes) (S : Schema) (L : FloatLib) (mem : List Nat → Nat) (msd : Int) (m : Method)
    (c : Client Bin) (i : Bin) (strict : Bool) (name : Bytes) (ty q : I32) (fs : Fields),
    Endpoint T inn out buf → S.Ok → c.input = some i → name.length < 2 ^ 31 → ty.toNat < 256 → i.checkReadLength = false →
    (strict = true ∨ i.strictRead = false) → AnswerReadable S L mem m ty fs → which c.seqId ty q →
    ∃ N, ∀ fuel, N ≤ fuel → ∀ t rest, inn t = BinarySpec.message strict name ty q ++ BinarySpec.encode (.struct fs) ++ rest →
      ∃ x t', (Client.recv binary S L mem msd fuel m).run T c t = (.ok (x, c), t') ∧ inn t' = rest

def C218_statement : Prop := C218_for fun _ _ _ => True

/-- A reply that bears the sequence id of the call. -/
theorem whole_reply {σ : Type} {T : Transport σ} {inn out buf : σ → Bytes} {S : Schema} {L : FloatLib} {mem : List Nat → Nat} (msd : Int)
    {m : Method} {c : Client Bin} {i : Bin} {strict : Bool} {name : Bytes} {ty : I32} {fs : Fields} (E : Endpoint T inn out buf) (hS : S.Ok)
    (hc : c.input = some i) (hn : name.length < 2 ^ 31) (hty : ty.toNat < 256) (hi : i.checkReadLength = false)
    (hs : strict = true ∨ i.strictRead = false) (hx : ty ≠ EXCEPTION) (hw : fs.WF) (hcf : fs.Conforms S (S.structs m.result)) {r : Attrs}
    (hb : buildFields S L mem fs [] (S.structs m.result) ((S.structs m.result).fresh S) = .ok r) {fuel : Nat} (hf : fs.size ≤ fuel) (t : σ)
    (rest : Bytes) (ht : inn t = BinarySpec.message strict name ty c.seqId ++ BinarySpec.encode (.struct fs) ++ rest) :
    ∃ t', (Client.recv binary S L mem msd fuel m).run T c t = (.ok ((some r, none), c), t') ∧ inn t' = rest := by
  obtain ⟨t1, e1, i1, -⟩ := E.takes (Bin.reads_header strict name ty c.seqId hn hty i hi hs) t (BinarySpec.encode (.struct fs) ++ rest)
    (by rw [ht, List.append_assoc])
  have r0 : (Client.ensureInput : P (Client Bin) Unit).run T c t = (.ok ((), c), t) := by
    show (Client.ensureInput c : Prog _).run T t = _
    simp only [Client.ensureInput, hc]; rfl
  have hc' : { c with input := some i } = c := by rw [← hc]
  have r3 : ∀ t, (Client.inp binary.readMessageEnd).run T c t = (.ok (none, c), t) := fun t => by
    rw [Client.run_inp _ _ i hc]
    show putBack _ (Res.ok (none, i), t) = _
    rw [putBack_ok, hc']
  have ho := Dec.genInto hS L mem msd fs fuel [] (S.structs m.result) ((S.structs m.result).fresh S) hf (hS m.result) hcf
    (Bin.dec_val (.struct fs) i hi hw)
  rw [hb] at ho
  obtain ⟨t2, e2, i2, -⟩ := E.takes ho t1 rest i1
  refine ⟨t2, ?_, i2⟩
  unfold Client.recv
  rw [P.run_bind, r0, andThen_ok, P.run_bind, Client.run_inp _ _ i hc, e1]
  simp only [putBack_ok, andThen_ok, Option.isSome_none, Bool.false_eq_true, if_false, if_neg hx, hc']
  rw [P.run_bind, P.run_get, andThen_ok, if_neg (fun h => h rfl), P.run_bind, Client.run_inp _ _ i hc]
  have e2 : (genRead binary S L mem msd fuel [] (S.structs m.result)).run T i t1 = _ := e2
  rw [e2]
  simp only [putBack_ok, andThen_ok, hc', P.run_bind, r3, P.run_pure]

/-- C218 for exceptions with any sequence id, and for messages of every other type that
bear the sequence id of the call. -/
theorem C218_partial : C218_for fun own ty q => ty = EXCEPTION ∨ q = own := by
  intro σ T inn out buf S L mem msd m c i strict name ty q fs E hS hc hn hty hi hs hr hw
  refine ⟨fs.size, fun fuel hf t rest ht => ?_⟩
  obtain ⟨t1, e1, i1, -⟩ := E.takes (Bin.reads_header strict name ty q hn hty i hi hs) t (BinarySpec.encode (.struct fs) ++ rest)
    (by rw [ht, List.append_assoc])
  have r0 : (Client.ensureInput : P (Client Bin) Unit).run T c t = (.ok ((), c), t) := by
    show (Client.ensureInput c : Prog _).run T t = _
    simp only [Client.ensureInput, hc]; rfl
  have hc' : { c with input := some i } = c := by rw [← hc]
  have r3 : ∀ t, (Client.inp binary.readMessageEnd).run T c t = (.ok (none, c), t) := fun t => by
    rw [Client.run_inp _ _ i hc]
    show putBack _ (Res.ok (none, i), t) = _
    rw [putBack_ok, hc']
  have hd := Bin.dec_val (.struct fs) i hi hr.1
  by_cases hx : ty = EXCEPTION
  · obtain ⟨t2, e2, i2, -⟩ := E.takes (Dec.app msd fs fuel hf hd) t1 rest i1
    refine ⟨(none, some (AppExc.collect fs ⟨0, []⟩).err), t2, ?_, i2⟩
    unfold Client.recv
    rw [P.run_bind, r0, andThen_ok, P.run_bind, Client.run_inp _ _ i hc, e1]
    simp only [putBack_ok, andThen_ok, Option.isSome_none, Bool.false_eq_true, if_false, if_pos hx, hc']
    rw [P.run_bind, Client.run_inp _ _ i hc, e2]
    simp only [putBack_ok, andThen_ok, Option.isSome_none, Bool.false_eq_true, if_false, hc', P.run_bind, r3, P.run_pure]
    rfl
  · obtain ⟨hcf, r, hb⟩ := hr.2.resolve_left hx
    have hq := hw.resolve_left hx
    subst hq
    obtain ⟨t2, e2, i2⟩ := whole_reply msd E hS hc hn hty hi hs hx hr.1 hcf hb hf t rest ht
    exact ⟨_, t2, e2, i2⟩

/-- Never is the rest of an answer with another sequence id taken off, whatever it holds. -/
theorem C218_stale_violated {σ : Type} {T : Transport σ} {inn out buf : σ → Bytes} (S : Schema) (L : FloatLib) (mem : List Nat → Nat)
    (msd : Int) (fuel : Nat) (m : Method) (c : Client Bin) (i : Bin) (strict : Bool) (name : Bytes) (ty q : I32) (fs : Fields)
    (E : Endpoint T inn out buf) (hc : c.input = some i) (hn : name.length < 2 ^ 31) (hty : ty.toNat < 256)
    (hi : i.checkReadLength = false) (hs : strict = true ∨ i.strictRead = false) (hq : q ≠ c.seqId) (hx : ty ≠ EXCEPTION)
    (t : σ) (rest : Bytes) (ht : inn t = BinarySpec.message strict name ty q ++ BinarySpec.encode (.struct fs) ++ rest) :
    ¬ ∃ x t', (Client.recv binary S L mem msd fuel m).run T c t = (.ok (x, c), t') ∧ inn t' = rest := by
  rintro ⟨x, t', h1, h2⟩
  obtain ⟨t1, e1, i1⟩ := C59_partial S L mem msd fuel m c i strict name ty q E hc hn hty hi hs hq hx t (BinarySpec.encode (.struct fs) ++ rest)
    (by rw [ht, List.append_assoc])
  rw [e1] at h1
  have h3 : t1 = t' := congrArg Prod.snd h1
  subst h3
  rw [i1] at h2
  have h4 := congrArg List.length h2
  rw [List.length_append] at h4
  cases fs <;> simp [BinarySpec.encode, BinarySpec.encodeFields] at h4

theorem C218_violated : ¬ C218_statement := by
  intro h
  obtain ⟨N, h⟩ := h pipeClient (fun s => s.2) (fun s => s.1) (fun _ => []) sumSchema noFloats (fun _ => 0) 64 addMethod firstCall
    Bin.default true (ascii "add") REPLY 0 .nil pipe_client sumSchema_ok rfl (by decide) (by decide) rfl (.inl rfl)
    ⟨trivial, .inr ⟨trivial, _, rfl⟩⟩ trivial
  exact C218_stale_violated sumSchema noFloats (fun _ => 0) 64 N addMethod firstCall Bin.default true (ascii "add") REPLY 0 .nil pipe_client rfl
    (by decide) (by decide) rfl (.inl rfl) (by decide) (by decide) ([], _) [] rfl (h N (Nat.le_refl _) ([], _) [] rfl)

/-- C218 as callers see it: when an answer has been taken, the answer to the next call
is delivered. -/
def C218_next_for (which : I32 → I32 → I32 → Prop) : Prop :=
  ∀ (S : Schema) (L : FloatLib) (mem : List Nat → Nat) (msd : Int) (m : Method) (c : Client Bin) (i : Bin) (name : Bytes) (ty q q' : I32)
    (fs gs : Fields) (r : Attrs), S.Ok → c.input = some i → name.length < 2 ^ 31 → m.name.length < 2 ^ 31 → ty.toNat < 256 →
    i.checkReadLength = false → AnswerReadable S L mem m ty fs → which c.seqId ty q → gs.WF → gs.Conforms S (S.structs m.result) →
    buildFields S L mem gs [] (S.structs m.result) ((S.structs m.result).fresh S) = .ok r →
    ∃ N, ∀ fuel, N ≤ fuel → ∃ x c1 t1 c2 t2,
      (Client.recv binary S L mem msd fuel m).run pipeClient c ([], BinarySpec.message true name ty q ++ BinarySpec.encode (.struct fs) ++
        (BinarySpec.message true m.name REPLY q' ++ BinarySpec.encode (.struct gs))) = (.ok (x, c1), t1) ∧
      (Client.recv binary S L mem msd fuel m).run pipeClient { c1 with seqId := q' } t1 = (.ok ((some r, none), c2), t2)

/-- C218 as callers see it, for the same answers as in `C218_partial`. -/
theorem C218_next_partial : C218_next_for fun own ty q => ty = EXCEPTION ∨ q = own := by
  intro S L mem msd m c i name ty q q' fs gs r hS hc hn hm hty hi hr hw hg hgc hb
  obtain ⟨N, h⟩ := C218_partial pipeClient (fun s => s.2) (fun s => s.1) (fun _ => []) S L mem msd m c i true name ty q fs pipe_client hS hc hn hty
    hi (.inl rfl) hr hw
  refine ⟨max N gs.size, fun fuel hf => ?_⟩
  obtain ⟨x, t1, e1, i1⟩ := h fuel (by omega) ([], _) _ rfl
  obtain ⟨t2, e2, -⟩ := whole_reply (c := { c with seqId := q' }) (m := m) msd pipe_client hS hc hm (by decide : REPLY.toNat < 256) hi
    (.inl rfl) (by decide) hg hgc hb (show gs.size ≤ fuel by omega) t1 [] (by rw [i1, List.append_nil])
  exact ⟨x, c, t1, _, t2, e1, e2⟩

/-- A late answer to an earlier call costs the next one its answer, although that has
arrived in order: the client takes the rest of the late one for the head of a message. -/
theorem C218_next_violated : ¬ C218_next_for fun _ _ _ => True := by
  intro h
  obtain ⟨N, h⟩ := h sumSchema noFloats (fun _ => 0) 64 addMethod { firstCall with seqId := 2 } Bin.default (ascii "add") REPLY 1 3
    (.cons 0 (.i32 8) .nil) (.cons 0 (.i32 9) .nil) [(0, .int32 9)] sumSchema_ok rfl (by decide) (by decide) (by decide) rfl
    ⟨⟨trivial, trivial⟩, .inr ⟨⟨fun m hm _ => by rw [List.mem_singleton.1 hm]; exact trivial, fun h => absurd h (by decide), trivial⟩, _, rfl⟩⟩
    trivial ⟨trivial, trivial⟩ ⟨fun m hm _ => by rw [List.mem_singleton.1 hm]; exact trivial, fun h => absurd h (by decide), trivial⟩ rfl
  obtain ⟨x, c1, t1, c2, t2, h1, h2⟩ := h (N + 10) (by omega)
  obtain ⟨t3, e1, i1⟩ := C59_partial sumSchema noFloats (fun _ => 0) 64 (N + 10) addMethod { firstCall with seqId := 2 } Bin.default true
    (ascii "add") REPLY 1 pipe_client rfl (by decide) (by decide) rfl (.inl rfl) (by decide) (by decide) ([], _) _ rfl
  rw [List.append_assoc] at h1
  rw [h1] at e1
  simp only [Prod.mk.injEq, Res.ok.injEq] at e1
  obtain ⟨⟨-, rfl⟩, rfl⟩ := e1
  have h3 : ∃ c3 t3 e, (Client.recv binary sumSchema noFloats (fun _ => 0) 64 (N + 10) addMethod).run pipeClient { firstCall with seqId := 3 }
      (t1.1, BinarySpec.encode (.struct (.cons 0 (.i32 8) .nil)) ++ (BinarySpec.message true addMethod.name REPLY 3 ++
        BinarySpec.encode (.struct (.cons 0 (.i32 9) .nil)))) = (.ok ((none, some e), c3), t3) := ⟨_, _, _, rfl⟩
  obtain ⟨c3, t3, e, h3⟩ := h3
  have ht : t1 = (t1.1, BinarySpec.encode (.struct (.cons 0 (.i32 8) .nil)) ++ (BinarySpec.message true addMethod.name REPLY 3 ++
        BinarySpec.encode (.struct (.cons 0 (.i32 9) .nil)))) := Prod.ext rfl i1
  rw [ht] at h2
  have h4 := h2.symm.trans h3
  simp at h4

/-! ## The hypotheses are met -/

example := C218_partial pipeClient (fun s => s.2) (fun s => s.1) (fun _ => []) sumSchema noFloats (fun _ => 0) 64
  addMethod firstCall Bin.default true (ascii "sub") EXCEPTION 7 (.cons 9 (.bool true) .nil) pipe_client sumSchema_ok rfl (by decide) (by decide)
  rfl (.inl rfl) ⟨⟨trivial, trivial⟩, .inl rfl⟩ (.inl rfl)

example := C218_partial pipeClient (fun s => s.2) (fun s => s.1) (fun _ => []) sumSchema noFloats (fun _ => 0) 64
  addMethod firstCall Bin.default true (ascii "add") REPLY 1 (.cons 0 (.i32 8) .nil) pipe_client sumSchema_ok rfl (by decide) (by decide)
  rfl (.inl rfl)
  ⟨⟨trivial, trivial⟩, .inr ⟨⟨fun m hm _ => by rw [List.mem_singleton.1 hm]; exact trivial, fun h => absurd h (by decide), trivial⟩, _, rfl⟩⟩
  (.inr rfl)

/-- An exception, then a reply. -/
example := C218_next_partial sumSchema noFloats (fun _ => 0) 64 addMethod firstCall Bin.default (ascii "add") EXCEPTION 9 2
  (.cons 2 (.i32 5) .nil) (.cons 0 (.i32 9) .nil) [(0, .int32 9)] sumSchema_ok rfl (by decide) (by decide) (by decide) rfl
  ⟨⟨trivial, trivial⟩, .inl rfl⟩ (.inl rfl) ⟨trivial, trivial⟩
  ⟨fun m hm _ => by rw [List.mem_singleton.1 hm]; exact trivial, fun h => absurd h (by decide), trivial⟩ rfl

end Thrift
