import Verif.Lemmas.BinaryService
import Verif.Spec.Http
/-!
# Calls over HTTP
-/

namespace Thrift

/-- The client between two flushes: the response, what is written, the outside. -/
def between (W : Web ρ ν) : Transport (Option ρ × Bytes × ν) where
  read k s := (.ok (Http.read W k ⟨s.1, some s.2.1⟩ s.2.2).1, (s.1, s.2.1, (Http.read W k ⟨s.1, some s.2.1⟩ s.2.2).2))
  write bs s := (.ok (bs.length, none), (s.1, s.2.1 ++ bs, s.2.2))
  flush s := (.ok none, s)

/-- A client that can write. -/
def asClient (s : Option ρ × Bytes × ν) : Http ρ × ν := (⟨s.1, some s.2.1⟩, s.2.2)

theorem readAllLoop_between (W : Web ρ ν) (size : Nat) : ∀ (fuel : Nat) (got : Bytes) (err : GoErr) (s : Option ρ × Bytes × ν),
    readAllLoop (http W).read size fuel got err (asClient s) =
      ((readAllLoop (between W).read size fuel got err s).1, asClient (readAllLoop (between W).read size fuel got err s).2)
  | 0, got, err, t => by simp only [readAllLoop]; split <;> rfl
  | fuel + 1, got, err, t => by
    simp only [readAllLoop]
    split
    · have : (http W).read (size - got.length) (asClient t) =
        (((between W).read (size - got.length) t).1, asClient ((between W).read (size - got.length) t).2) := rfl
      rw [this]
      rcases (between W).read (size - got.length) t with ⟨_ | _ | _, t'⟩
      · simp only
        split
        · rfl
        · exact readAllLoop_between W size fuel _ _ _
      · rfl
      · rfl
    · rfl

theorem Prog.Quiet.run_between {p : Prog α} (h : p.Quiet) (W : Web ρ ν) (t : Option ρ × Bytes × ν) :
    p.run (http W) (asClient t) = ((p.run (between W) t).1, asClient (p.run (between W) t).2) := by
  induction p generalizing t with
  | ret a => rfl
  | panic => rfl
  | stuck => rfl
  | readAll n k ih =>
    have hr : (http W).readAll n (asClient t) = (((between W).readAll n t).1, asClient ((between W).readAll n t).2) := readAllLoop_between W n _ _ _ _
    rw [Prog.run, Prog.run, hr]
    rcases (between W).readAll n t with ⟨_ | _ | _, t'⟩
    · exact ih _ (h _) _
    · rfl
    · rfl
  | write bs k ih =>
    have hr : (http W).write bs (asClient t) = (((between W).write bs t).1, asClient ((between W).write bs t).2) := rfl
    rw [Prog.run, Prog.run, hr]
    rcases (between W).write bs t with ⟨_ | _ | _, t'⟩
    · exact ih _ (h _) _
    · rfl
    · rfl
  | flush => exact h.elim

theorem P.Quiet.run_between {m : P π α} (h : m.Quiet) (W : Web ρ ν) (s : π) (t : Option ρ × Bytes × ν) :
    m.run (http W) s (asClient t) = ((m.run (between W) s t).1, asClient (m.run (between W) s t).2) := (h s).run_between W t

/-- What is still to be read. -/
def unread (rest : ρ → ν → Bytes) (s : Option ρ × Bytes × ν) : Bytes :=
  match s.1 with
  | none => []
  | some r => rest r s.2.2

theorem osError_eof (e : Err) : ∃ g, transportFromOsError (some e) = some g := by
  simp only [transportFromOsError]
  split
  · exact ⟨_, rfl⟩
  · split <;> exact ⟨_, rfl⟩

section
variable {W : Web ρ ν} {rest : ρ → ν → Bytes} {handler : ν → η} {i : ι} {o : ω} {proc : P (Server ι ω η) (Bool × GoErr)}

theorem Site.endpoint (H : Site W rest handler i o proc) : Endpoint (between W) (unread rest) (fun s => s.2.1) (fun _ => []) where
  read_some n s hn hv := by
    obtain ⟨r, b, x⟩ := s
    cases r with
    | none => exact absurd rfl hv
    | some r =>
      obtain ⟨j, x', h1, h2, h3, h4, h5⟩ := H.read_some n r x hn hv
      refine ⟨j, (some r, b, x'), h1, h2, h3, ?_, h5, rfl, rfl⟩
      simp only [between, Http.read, h4, unread]
      rfl
  read_end n s hn hv := by
    obtain ⟨r, b, x⟩ := s
    cases r with
    | none => exact ⟨_, (none, b, x), rfl, rfl, rfl, rfl⟩
    | some r =>
      obtain ⟨e, x', h4, h5⟩ := H.read_end n r x hn hv
      obtain ⟨g, hg⟩ := osError_eof e
      refine ⟨g, (some r, b, x'), ?_, h5, rfl, rfl⟩
      simp only [between, Http.read, h4, hg]
  write bs s := ⟨_, rfl, rfl, by simp⟩
  flush s := ⟨s, rfl, rfl, by simp, rfl⟩

theorem Site.frame (H : Site W rest handler i o proc) : Untouched (between W) (fun s => handler s.2.2) where
  read n s := by
    obtain ⟨r, b, x⟩ := s
    cases r with
    | none => rfl
    | some r => exact H.read_handler n r x
  write _ _ := rfl
  flush _ := rfl

theorem duplex_endpoint : Endpoint duplex (fun s => s.1) (fun s => s.2) (fun _ => []) := pipe_server

/-- The flush of a request that the server answers. -/
theorem Site.flushes (H : Site W rest handler i o proc) {a : Bool × GoErr} {i' : ι} {o' : ω} {h' : η} {req reply : Bytes} {r : Option ρ} {n : ν}
    (hs : Serves duplex (fun s => s.1) (fun s => s.2) (fun _ => []) proc ⟨i, o, handler n⟩ ⟨i', o', h'⟩ req reply a) :
    ∃ r' n', (http W).flush (asClient (r, req, n)) = (.ok none, asClient (some r', [], n')) ∧ rest r' n' = reply ∧ handler n' = h' := by
  obtain ⟨t, h1, -, h2, -⟩ := hs (req, []) [] (by simp)
  obtain ⟨r', n', h3, h4, h5⟩ := H.post req n _ _ _ h1
  refine ⟨r', n', ?_, by rw [h4]; simpa using h2, h5⟩
  simp only [http, asClient, Http.flush, h3]
  simp

section call
variable {p : Proto π} {S : Schema} {L : FloatLib} {mem : List Nat → Nat} {msd : Int} {fuel : Nat} {m : Method} {args : Attrs}

theorem Site.send (H : Site W rest handler i o proc) {c : Client π} {f oc o₁ o₂ o₃ : π} {a b e reply : Bytes} (hf : c.factory = some f)
    (ho : c.output = some oc) (Hp : p.Holds)
    (h1 : Emits (p.writeMessageBegin m.name CALL (c.seqId + 1)) f o₁ a)
    (h2 : Emits (genWrite p S fuel (S.structs m.args) args) o₁ o₂ b)
    (h3 : Emits p.writeMessageEnd o₂ o₃ e) {res : Bool × GoErr} {i' : ι} {o' : ω} {h h' : η}
    (hs : Serves duplex (fun s => s.1) (fun s => s.2) (fun _ => []) proc ⟨i, o, h⟩ ⟨i', o', h'⟩ (a ++ (b ++ e)) reply res)
    (r : Option ρ) (n : ν) (hn : handler n = h) :
    ∃ r' n', (Client.send p S fuel m args).run (http W) c (asClient (r, [], n)) =
        (.ok (none, { c with seqId := c.seqId + 1, output := some o₃ }), asClient (some r', [], n')) ∧
      rest r' n' = reply ∧ handler n' = h' := by
  obtain ⟨t1, e1, i1, u1⟩ := H.endpoint.puts h1 (r, [], n)
  obtain ⟨t2, e2, i2, u2⟩ := H.endpoint.puts h2 t1
  obtain ⟨t3, e3, i3, u3⟩ := H.endpoint.puts h3 t2
  have v1 := H.frame.run (p.writeMessageBegin m.name CALL (c.seqId + 1) f) (r, [], n)
  have v2 := H.frame.run (genWrite p S fuel (S.structs m.args) args o₁) t1
  have v3 := H.frame.run (p.writeMessageEnd o₂) t2
  have w1 : handler t1.2.2 = handler n := by rw [← v1]; exact (congrArg (fun t => handler t.2.2) (congrArg Prod.snd e1)).symm
  have w2 : handler t2.2.2 = handler t1.2.2 := by rw [← v2]; exact (congrArg (fun t => handler t.2.2) (congrArg Prod.snd e2)).symm
  have w3 : handler t3.2.2 = handler t2.2.2 := by rw [← v3]; exact (congrArg (fun t => handler t.2.2) (congrArg Prod.snd e3)).symm
  obtain ⟨r3, b3, n3⟩ := t3
  have hb : b3 = a ++ (b ++ e) := by
    simp only [List.append_nil] at u1 u2 u3
    rw [u3, u2, u1]; simp
  subst hb
  obtain ⟨r', n', e4, h4, h5⟩ := H.flushes (r := r3) (n := n3) (by rw [show handler n3 = h by rw [← hn, ← w1, ← w2, ← w3]]; exact hs)
  refine ⟨r', n', ?_, h4, h5⟩
  have r0 (x : Http ρ × ν) : (Client.renewOutput : P (Client π) Unit).run (http W) c x = (.ok ((), { c with output := some f }), x) := by
    show (Client.renewOutput c : Prog _).run (http W) x = _
    simp only [Client.renewOutput, ho, hf]; rfl
  unfold Client.send
  rw [P.run_bind, r0, andThen_ok, P.run_bind, P.run_modify, andThen_ok, P.run_bind, P.run_get, andThen_ok, P.run_bind]
  rw [Client.run_out _ _ f rfl, (Hp.messageBegin _ _ _).run_between, e1]
  simp only [putBack_ok, andThen_ok]
  rw [P.run_bind, Client.run_out _ _ o₁ rfl, (Hp.write fuel _ _).run_between, e2]
  simp only [putBack_ok, andThen_ok]
  rw [P.run_bind, Client.run_out _ _ o₂ rfl, Hp.messageEnd.run_between, e3]
  simp only [putBack_ok, andThen_ok]
  rw [P.run_bind, P.run_tflush, e4]
  rfl

theorem Site.recv_reply (H : Site W rest handler i o proc) (R : p.Reads) {c : Client π} {j i₁ i₂ i₃ : π} {a b : Bytes} {name : Bytes} {ty : I32}
    {r : Attrs} {e : GoErr} (hi : c.input = some j) (hty : ty ≠ EXCEPTION)
    (h1 : Runs p.readMessageBegin j i₁ a ((name, ty, c.seqId), none))
    (h2 : Runs (genRead p S L mem msd fuel [] (S.structs m.result)) i₁ i₂ b (r, none))
    (h3 : Runs p.readMessageEnd i₂ i₃ [] e) (x : ρ) (n : ν) (hx : rest x n = a ++ b) :
    ∃ r' n', (Client.recv p S L mem msd fuel m).run (http W) c (asClient (some x, [], n)) =
        (.ok ((some r, none), { c with input := some i₃ }), asClient (r', [], n')) ∧ handler n' = handler n := by
  obtain ⟨t1, e1, d1, u1⟩ := H.endpoint.takes h1 (some x, [], n) b hx
  obtain ⟨t2, e2, d2, u2⟩ := H.endpoint.takes h2 t1 [] (by rw [d1, List.append_nil])
  obtain ⟨t3, e3, d3, u3⟩ := H.endpoint.takes h3 t2 [] d2
  have v1 := H.frame.run (p.readMessageBegin j) (some x, [], n)
  have v2 := H.frame.run (genRead p S L mem msd fuel [] (S.structs m.result) i₁) t1
  have v3 := H.frame.run (p.readMessageEnd i₂) t2
  have w1 : handler t1.2.2 = handler n := by rw [← v1]; exact (congrArg (fun t => handler t.2.2) (congrArg Prod.snd e1)).symm
  have w2 : handler t2.2.2 = handler t1.2.2 := by rw [← v2]; exact (congrArg (fun t => handler t.2.2) (congrArg Prod.snd e2)).symm
  have w3 : handler t3.2.2 = handler t2.2.2 := by rw [← v3]; exact (congrArg (fun t => handler t.2.2) (congrArg Prod.snd e3)).symm
  obtain ⟨r3, b3, n3⟩ := t3
  have hb : b3 = [] := by
    simp only [List.append_nil] at u1 u2 u3
    rw [u3, u2, u1]
  subst hb
  refine ⟨r3, n3, ?_, by rw [← w1, ← w2, ← w3]⟩
  have r0 (x : Http ρ × ν) : (Client.ensureInput : P (Client π) Unit).run (http W) c x = (.ok ((), c), x) := by
    show (Client.ensureInput c : Prog _).run (http W) x = _
    simp only [Client.ensureInput, hi]; rfl
  unfold Client.recv
  rw [P.run_bind, r0, andThen_ok, P.run_bind, Client.run_inp _ _ j hi, R.messageBegin.quiet.run_between, e1]
  simp only [putBack_ok, andThen_ok, Option.isSome_none, Bool.false_eq_true, if_false, if_neg hty, ne_eq, not_true,
    P.run_bind, P.run_get]
  rw [Client.run_inp _ _ i₁ rfl, (R.gen fuel _ _).quiet.run_between, e2]
  simp only [putBack_ok, andThen_ok]
  rw [Client.run_inp _ _ i₂ rfl, R.messageEnd.quiet.run_between, e3]
  rfl

theorem Site.recv_exception (H : Site W rest handler i o proc) (R : p.Reads) {c : Client π} {j i₁ i₂ i₃ : π} {a b : Bytes} {name : Bytes} {q : I32}
    {y : AppExc} (hi : c.input = some j)
    (h1 : Runs p.readMessageBegin j i₁ a ((name, EXCEPTION, q), none))
    (h2 : Runs (appRead p msd fuel) i₁ i₂ b (some y, none))
    (h3 : Runs p.readMessageEnd i₂ i₃ [] none) (x : ρ) (n : ν) (hx : rest x n = a ++ b) :
    ∃ r' n', (Client.recv p S L mem msd fuel m).run (http W) c (asClient (some x, [], n)) =
        (.ok ((none, some y.err), { c with input := some i₃ }), asClient (r', [], n')) ∧ handler n' = handler n := by
  obtain ⟨t1, e1, d1, u1⟩ := H.endpoint.takes h1 (some x, [], n) b hx
  obtain ⟨t2, e2, d2, u2⟩ := H.endpoint.takes h2 t1 [] (by rw [d1, List.append_nil])
  obtain ⟨t3, e3, d3, u3⟩ := H.endpoint.takes h3 t2 [] d2
  have v1 := H.frame.run (p.readMessageBegin j) (some x, [], n)
  have v2 := H.frame.run (appRead p msd fuel i₁) t1
  have v3 := H.frame.run (p.readMessageEnd i₂) t2
  have w1 : handler t1.2.2 = handler n := by rw [← v1]; exact (congrArg (fun t => handler t.2.2) (congrArg Prod.snd e1)).symm
  have w2 : handler t2.2.2 = handler t1.2.2 := by rw [← v2]; exact (congrArg (fun t => handler t.2.2) (congrArg Prod.snd e2)).symm
  have w3 : handler t3.2.2 = handler t2.2.2 := by rw [← v3]; exact (congrArg (fun t => handler t.2.2) (congrArg Prod.snd e3)).symm
  obtain ⟨r3, b3, n3⟩ := t3
  have hb : b3 = [] := by
    simp only [List.append_nil] at u1 u2 u3
    rw [u3, u2, u1]
  subst hb
  refine ⟨r3, n3, ?_, by rw [← w1, ← w2, ← w3]⟩
  have r0 (x : Http ρ × ν) : (Client.ensureInput : P (Client π) Unit).run (http W) c x = (.ok ((), c), x) := by
    show (Client.ensureInput c : Prog _).run (http W) x = _
    simp only [Client.ensureInput, hi]; rfl
  unfold Client.recv
  rw [P.run_bind, r0, andThen_ok, P.run_bind, Client.run_inp _ _ j hi, R.messageBegin.quiet.run_between, e1]
  simp only [putBack_ok, andThen_ok, Option.isSome_none, Bool.false_eq_true, if_false, if_true, P.run_bind]
  rw [Client.run_inp _ _ i₁ rfl, (R.app fuel).quiet.run_between, e2]
  simp only [putBack_ok, andThen_ok, Option.isSome_none, Bool.false_eq_true, if_false, P.run_bind]
  rw [Client.run_inp _ _ i₂ rfl, R.messageEnd.quiet.run_between, e3]
  rfl

end call
end
end Thrift
