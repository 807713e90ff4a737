import Verif.Lemmas.Service
import Verif.Lemmas.Quiet
/-!
# Calls over a served connection
-/

namespace Thrift

section served
variable {C V : Transport σ} {proc : P ς (Bool × GoErr)}

theorem readAllLoop_served (v : Option ς) (size : Nat) : ∀ (fuel : Nat) (got : Bytes) (err : GoErr) (t : σ),
    readAllLoop (served C V proc).read size fuel got err (v, t) =
      ((readAllLoop C.read size fuel got err t).1, (v, (readAllLoop C.read size fuel got err t).2))
  | 0, got, err, t => by simp only [readAllLoop]; split <;> rfl
  | fuel + 1, got, err, t => by
    simp only [readAllLoop]
    split
    · have : (served C V proc).read (size - got.length) (v, t) =
        ((C.read (size - got.length) t).1, (v, (C.read (size - got.length) t).2)) := rfl
      rw [this]
      rcases C.read (size - got.length) t with ⟨_ | _ | _, t'⟩
      · simp only
        split
        · rfl
        · exact readAllLoop_served v size fuel _ _ _
      · rfl
      · rfl
    · rfl

/-- Without a flush the server does nothing. -/
theorem Prog.Quiet.run_served {p : Prog α} (h : p.Quiet) (v : Option ς) (t : σ) :
    p.run (served C V proc) (v, t) = ((p.run C t).1, (v, (p.run C t).2)) := by
  induction p generalizing t with
  | ret a => rfl
  | panic => rfl
  | stuck => rfl
  | readAll n k ih =>
    have hr : (served C V proc).readAll n (v, t) = ((C.readAll n t).1, (v, (C.readAll n t).2)) := readAllLoop_served v n _ _ _ _
    rw [Prog.run, Prog.run, hr]
    rcases C.readAll n t with ⟨_ | _ | _, t'⟩
    · exact ih _ (h _) _
    · rfl
    · rfl
  | write bs k ih =>
    have hr : (served C V proc).write bs (v, t) = ((C.write bs t).1, (v, (C.write bs t).2)) := rfl
    rw [Prog.run, Prog.run, hr]
    rcases C.write bs t with ⟨_ | _ | _, t'⟩
    · exact ih _ (h _) _
    · rfl
    · rfl
  | flush => exact h.elim

theorem P.Quiet.run_served {m : P π α} (h : m.Quiet) (s : π) (v : Option ς) (t : σ) :
    m.run (served C V proc) s (v, t) = ((m.run C s t).1, (v, (m.run C s t).2)) := (h s).run_served v t

/-- Nothing is on its way. -/
structure Settled (up down cbuf vbuf : σ → Bytes) (t : σ) : Prop where
  up : up t = []
  down : down t = []
  cbuf : cbuf t = []
  vbuf : vbuf t = []

section call
variable {up down cbuf vbuf : σ → Bytes} {p : Proto π} {S : Schema} {L : FloatLib} {mem : List Nat → Nat} {msd : Int} {fuel : Nat}
  {m : Method} {args : Attrs}

/-- The client's side of a request. -/
theorem send_run (K : Link C V up down cbuf vbuf) {c : Client π} {f o o₁ o₂ o₃ : π} {a b e : Bytes} (hf : c.factory = some f)
    (ho : c.output = some o) (H : p.Holds)
    (h1 : Emits (p.writeMessageBegin m.name CALL (c.seqId + 1)) f o₁ a)
    (h2 : Emits (genWrite p S fuel (S.structs m.args) args) o₁ o₂ b)
    (h3 : Emits p.writeMessageEnd o₂ o₃ e) (v : Option ς) (t : σ) :
    ∃ t', (C.flush t').1 = .ok none ∧
      (Client.send p S fuel m args).run (served C V proc) c (v, t) =
        (.ok (none, { c with seqId := c.seqId + 1, output := some o₃ }), ((served C V proc).flush (v, t')).2) ∧
      up (C.flush t').2 = up t ++ cbuf t ++ (a ++ (b ++ e)) ∧ down (C.flush t').2 = down t ∧ cbuf (C.flush t').2 = [] ∧
      vbuf (C.flush t').2 = vbuf t := by
  obtain ⟨t1, e1, i1, u1⟩ := K.client.puts h1 t
  obtain ⟨t2, e2, i2, u2⟩ := K.client.puts h2 t1
  obtain ⟨t3, e3, i3, u3⟩ := K.client.puts h3 t2
  obtain ⟨t4, e4, i4, u4, b4⟩ := K.client.flush t3
  have v1 := K.client_frame.run (p.writeMessageBegin m.name CALL (c.seqId + 1) f) t
  have v2 := K.client_frame.run (genWrite p S fuel (S.structs m.args) args o₁) t1
  have v3 := K.client_frame.run (p.writeMessageEnd o₂) t2
  have v4 := K.client_frame.flush t3
  have w1 : vbuf t1 = vbuf t := by have := congrArg Prod.snd e1; rw [← v1]; exact (congrArg vbuf this).symm
  have w2 : vbuf t2 = vbuf t1 := by have := congrArg Prod.snd e2; rw [← v2]; exact (congrArg vbuf this).symm
  have w3 : vbuf t3 = vbuf t2 := by have := congrArg Prod.snd e3; rw [← v3]; exact (congrArg vbuf this).symm
  refine ⟨t3, by rw [e4], ?_, ?_, ?_, ?_, ?_⟩
  · have r0 (x : Option ς × σ) : (Client.renewOutput : P (Client π) Unit).run (served C V proc) c x = (.ok ((), { c with output := some f }), x) := by
      show (Client.renewOutput c : Prog _).run (served C V proc) x = _
      simp only [Client.renewOutput, ho, hf]; rfl
    unfold Client.send
    rw [P.run_bind, r0, andThen_ok, P.run_bind, P.run_modify, andThen_ok, P.run_bind, P.run_get, andThen_ok, P.run_bind]
    rw [Client.run_out _ _ f rfl, (H.messageBegin _ _ _).run_served, e1]
    simp only [putBack_ok, andThen_ok]
    rw [P.run_bind, Client.run_out _ _ o₁ rfl, (H.write fuel _ _).run_served, e2]
    simp only [putBack_ok, andThen_ok]
    rw [P.run_bind, Client.run_out _ _ o₂ rfl, H.messageEnd.run_served, e3]
    simp only [putBack_ok, andThen_ok]
    rw [P.run_bind, P.run_tflush]
    have hfl : ((served C V proc).flush (v, t3)).1 = .ok none := by show (C.flush t3).1 = _; rw [e4]
    rcases hx : (served C V proc).flush (v, t3) with ⟨r, x⟩
    rw [hx] at hfl
    simp only at hfl
    subst hfl
    rfl
  · rw [e4]; simp only; rw [u4, u3, u2, u1]; simp
  · rw [e4]; simp only; rw [i4, i3, i2, i1]
  · rw [e4]; exact b4
  · rw [v4, w3, w2, w1]

/-- A server that answers the request. -/
theorem served_flush (K : Link C V up down cbuf vbuf) {v v' : ς} {req reply : Bytes} {ok : Bool} {err : GoErr} {t : σ}
    (h : Serves V up down vbuf proc v v' req reply (ok, err)) (hu : up (C.flush t).2 = req) (hd : down (C.flush t).2 = [])
    (hc : cbuf (C.flush t).2 = []) (hv : vbuf (C.flush t).2 = []) :
    ∃ t', ((served C V proc).flush (some v, t)).2 = (if ok then some v' else none, t') ∧ up t' = [] ∧ down t' = reply ∧
      cbuf t' = [] ∧ vbuf t' = [] := by
  obtain ⟨t', e1, i1, o1, b1⟩ := h (C.flush t).2 [] (by rw [hu, List.append_nil])
  have c1 := K.server_frame.run (proc v) (C.flush t).2
  have c2 : cbuf t' = [] := by
    have := congrArg Prod.snd e1
    rw [← hc, ← c1]; exact (congrArg cbuf this).symm
  refine ⟨t', ?_, i1, by rw [o1, hd, hv]; simp, c2, b1⟩
  show (match some v with
    | none => (none, (C.flush t).2)
    | some v => match proc.run V v (C.flush t).2 with
      | (.ok ((true, _), v'), t) => (some v', t)
      | (_, t) => (none, t)) = _
  simp only [e1]
  cases ok <;> rfl

/-- Receiving a result. -/
theorem recv_reply (K : Link C V up down cbuf vbuf) (R : p.Reads) {c : Client π} {i i₁ i₂ i₃ : π} {a b : Bytes} {name : Bytes} {ty : I32}
    {r : Attrs} {e : GoErr} (hi : c.input = some i) (hty : ty ≠ EXCEPTION)
    (h1 : Runs p.readMessageBegin i i₁ a ((name, ty, c.seqId), none))
    (h2 : Runs (genRead p S L mem msd fuel [] (S.structs m.result)) i₁ i₂ b (r, none))
    (h3 : Runs p.readMessageEnd i₂ i₃ [] e) (v : Option ς) (t : σ)
    (hu : up t = []) (hd : down t = a ++ b) (hc : cbuf t = []) (hv : vbuf t = []) :
    ∃ t', (Client.recv p S L mem msd fuel m).run (served C V proc) c (v, t) =
        (.ok ((some r, none), { c with input := some i₃ }), (v, t')) ∧ Settled up down cbuf vbuf t' := by
  obtain ⟨t1, e1, d1, u1⟩ := K.client.takes h1 t b hd
  obtain ⟨t2, e2, d2, u2⟩ := K.client.takes h2 t1 [] (by rw [d1, List.append_nil])
  obtain ⟨t3, e3, d3, u3⟩ := K.client.takes h3 t2 [] d2
  have w1 := K.client_frame.run (p.readMessageBegin i) t
  have w2 := K.client_frame.run (genRead p S L mem msd fuel [] (S.structs m.result) i₁) t1
  have w3 := K.client_frame.run (p.readMessageEnd i₂) t2
  have x1 : vbuf t1 = vbuf t := by have := congrArg Prod.snd e1; rw [← w1]; exact (congrArg vbuf this).symm
  have x2 : vbuf t2 = vbuf t1 := by have := congrArg Prod.snd e2; rw [← w2]; exact (congrArg vbuf this).symm
  have x3 : vbuf t3 = vbuf t2 := by have := congrArg Prod.snd e3; rw [← w3]; exact (congrArg vbuf this).symm
  have hz : up t3 = [] ∧ cbuf t3 = [] := by
    have : up t3 ++ cbuf t3 = [] := by rw [u3, u2, u1, hu, hc]; rfl
    simpa using this
  refine ⟨t3, ?_, ⟨hz.1, d3, hz.2, by rw [x3, x2, x1, hv]⟩⟩
  have r0 (x : Option ς × σ) : (Client.ensureInput : P (Client π) Unit).run (served C V proc) c x = (.ok ((), c), x) := by
    show (Client.ensureInput c : Prog _).run (served C V proc) x = _
    simp only [Client.ensureInput, hi]; rfl
  unfold Client.recv
  rw [P.run_bind, r0, andThen_ok, P.run_bind, Client.run_inp _ _ i hi, R.messageBegin.quiet.run_served, e1]
  simp only [putBack_ok, andThen_ok, Option.isSome_none, Bool.false_eq_true, if_false, if_neg hty, ne_eq, not_true,
    P.run_bind, P.run_get]
  rw [Client.run_inp _ _ i₁ rfl, (R.gen fuel _ _).quiet.run_served, e2]
  simp only [putBack_ok, andThen_ok]
  rw [Client.run_inp _ _ i₂ rfl, R.messageEnd.quiet.run_served, e3]
  rfl

/-- Receiving an exception. -/
theorem recv_exception (K : Link C V up down cbuf vbuf) (R : p.Reads) {c : Client π} {i i₁ i₂ i₃ : π} {a b : Bytes} {name : Bytes} {q : I32}
    {x : AppExc} (hi : c.input = some i)
    (h1 : Runs p.readMessageBegin i i₁ a ((name, EXCEPTION, q), none))
    (h2 : Runs (appRead p msd fuel) i₁ i₂ b (some x, none))
    (h3 : Runs p.readMessageEnd i₂ i₃ [] none) (v : Option ς) (t : σ)
    (hu : up t = []) (hd : down t = a ++ b) (hc : cbuf t = []) (hv : vbuf t = []) :
    ∃ t', (Client.recv p S L mem msd fuel m).run (served C V proc) c (v, t) =
        (.ok ((none, some x.err), { c with input := some i₃ }), (v, t')) ∧ Settled up down cbuf vbuf t' := by
  obtain ⟨t1, e1, d1, u1⟩ := K.client.takes h1 t b hd
  obtain ⟨t2, e2, d2, u2⟩ := K.client.takes h2 t1 [] (by rw [d1, List.append_nil])
  obtain ⟨t3, e3, d3, u3⟩ := K.client.takes h3 t2 [] d2
  have w1 := K.client_frame.run (p.readMessageBegin i) t
  have w2 := K.client_frame.run (appRead p msd fuel i₁) t1
  have w3 := K.client_frame.run (p.readMessageEnd i₂) t2
  have x1 : vbuf t1 = vbuf t := by have := congrArg Prod.snd e1; rw [← w1]; exact (congrArg vbuf this).symm
  have x2 : vbuf t2 = vbuf t1 := by have := congrArg Prod.snd e2; rw [← w2]; exact (congrArg vbuf this).symm
  have x3 : vbuf t3 = vbuf t2 := by have := congrArg Prod.snd e3; rw [← w3]; exact (congrArg vbuf this).symm
  have hz : up t3 = [] ∧ cbuf t3 = [] := by
    have : up t3 ++ cbuf t3 = [] := by rw [u3, u2, u1, hu, hc]; rfl
    simpa using this
  refine ⟨t3, ?_, ⟨hz.1, d3, hz.2, by rw [x3, x2, x1, hv]⟩⟩
  have r0 (x : Option ς × σ) : (Client.ensureInput : P (Client π) Unit).run (served C V proc) c x = (.ok ((), c), x) := by
    show (Client.ensureInput c : Prog _).run (served C V proc) x = _
    simp only [Client.ensureInput, hi]; rfl
  unfold Client.recv
  rw [P.run_bind, r0, andThen_ok, P.run_bind, Client.run_inp _ _ i hi, R.messageBegin.quiet.run_served, e1]
  simp only [putBack_ok, andThen_ok, Option.isSome_none, Bool.false_eq_true, if_false, if_true, P.run_bind]
  rw [Client.run_inp _ _ i₁ rfl, (R.app fuel).quiet.run_served, e2]
  simp only [putBack_ok, andThen_ok, Option.isSome_none, Bool.false_eq_true, if_false, P.run_bind]
  rw [Client.run_inp _ _ i₂ rfl, R.messageEnd.quiet.run_served, e3]
  rfl

/-- A call, given what the server does and how the answer is received. -/
theorem call_run (K : Link C V up down cbuf vbuf) {c : Client π} {f o o₁ o₂ o₃ : π} {a b e reply : Bytes} (hf : c.factory = some f)
    (ho : c.output = some o) (H : p.Holds) (hm : m.oneway = false)
    (h1 : Emits (p.writeMessageBegin m.name CALL (c.seqId + 1)) f o₁ a)
    (h2 : Emits (genWrite p S fuel (S.structs m.args) args) o₁ o₂ b)
    (h3 : Emits p.writeMessageEnd o₂ o₃ e) {v v' : ς} {ok : Bool} {err : GoErr}
    (hs : Serves V up down vbuf proc v v' (a ++ (b ++ e)) reply (ok, err)) {res : Option Attrs × GoErr} {c' : Client π}
    (hr : ∀ (w : Option ς) (t : σ), up t = [] → down t = reply → cbuf t = [] → vbuf t = [] →
      ∃ t', (Client.recv p S L mem msd fuel m).run (served C V proc) { c with seqId := c.seqId + 1, output := some o₃ } (w, t) =
        (.ok (res, c'), (w, t')) ∧ Settled up down cbuf vbuf t')
    (t : σ) (ht : Settled up down cbuf vbuf t) :
    ∃ t', (Client.call p S L mem msd fuel m args).run (served C V proc) c (some v, t) =
        (.ok (res, c'), (if ok then some v' else none, t')) ∧ Settled up down cbuf vbuf t' := by
  obtain ⟨t1, _, e1, u1, d1, b1, w1⟩ := send_run (proc := proc) K hf ho H h1 h2 h3 (some v) t
  rw [ht.up, ht.cbuf] at u1
  obtain ⟨t2, e2, u2, d2, b2, w2⟩ := served_flush K hs u1 (d1.trans ht.down) b1 (w1.trans ht.vbuf)
  obtain ⟨t3, e3, ht3⟩ := hr (if ok then some v' else none) t2 u2 d2 b2 w2
  refine ⟨t3, ?_, ht3⟩
  unfold Client.call
  rw [P.run_bind, e1, andThen_ok]
  simp only [Option.isSome_none, Bool.false_eq_true, if_false, hm]
  rw [e2, e3]

/-- A call when the server is gone. -/
theorem call_gone (K : Link C V up down cbuf vbuf) (R : p.Reads) {c : Client π} {f o o₁ o₂ o₃ i i₁ : π} {a b e : Bytes}
    (hf : c.factory = some f) (ho : c.output = some o) (hi : c.input = some i) (H : p.Holds) (hm : m.oneway = false)
    (h1 : Emits (p.writeMessageBegin m.name CALL (c.seqId + 1)) f o₁ a)
    (h2 : Emits (genWrite p S fuel (S.structs m.args) args) o₁ o₂ b)
    (h3 : Emits p.writeMessageEnd o₂ o₃ e) {x : Bytes × TMessageType × I32} {err : Err}
    (hr : ∀ out, p.readMessageBegin.run duplex i ([], out) = (.ok ((x, some err), i₁), ([], out)))
    (t : σ) (ht : down t = []) :
    ∃ t', (Client.call p S L mem msd fuel m args).run (served C V proc) c (none, t) =
        (.ok ((none, some err), { c with seqId := c.seqId + 1, output := some o₃, input := some i₁ }), (none, t')) ∧ down t' = [] := by
  obtain ⟨t1, _, e1, u1, d1, b1, w1⟩ := send_run (proc := proc) K hf ho H h1 h2 h3 none t
  have e2 : ((served C V proc).flush (none, t1)).2 = (none, (C.flush t1).2) := rfl
  have hd : down (C.flush t1).2 = [] := d1.trans ht
  generalize (C.flush t1).2 = t2 at e2 hd
  obtain ⟨t3, e3, j3⟩ := K.client.faithful.simulateP p.readMessageBegin i t2
  rw [hd, hr] at e3 j3
  simp only [Prod.mk.injEq] at j3
  refine ⟨t3, ?_, j3.1.symm⟩
  unfold Client.call
  rw [P.run_bind, e1, andThen_ok]
  simp only [Option.isSome_none, Bool.false_eq_true, if_false, hm]
  rw [e2]
  have r0 (c : Client π) (hi : c.input = some i) (x : Option ς × σ) :
      (Client.ensureInput : P (Client π) Unit).run (served C V proc) c x = (.ok ((), c), x) := by
    show (Client.ensureInput c : Prog _).run (served C V proc) x = _
    simp only [Client.ensureInput, hi]; rfl
  unfold Client.recv
  rw [P.run_bind, r0 { c with seqId := c.seqId + 1, output := some o₃ } hi, andThen_ok, P.run_bind,
    Client.run_inp _ { c with seqId := c.seqId + 1, output := some o₃ } i hi, R.messageBegin.quiet.run_served, e3]
  simp only [putBack_ok, andThen_ok, Option.isSome_some, if_true, P.run_pure]

end call
end served
end Thrift
