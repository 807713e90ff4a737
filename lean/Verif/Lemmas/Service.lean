import Verif.Lemmas.AppException
import Verif.Lemmas.GenRoundTrip
import Verif.Lemmas.BinaryMessage
import Verif.Spec.Service
/-!
# Clients and processors over a connection
-/

namespace Thrift

/-! ## Endpoints -/

theorem Endpoint.faithful {T : Transport σ} {inn out buf : σ → Bytes} (E : Endpoint T inn out buf) :
    Faithful T inn (fun s => out s ++ buf s) where
  read_some n s _ hn hv := by
    obtain ⟨k, s', h1, h2, h3, h4, h5, h6, h7⟩ := E.read_some n s hn hv
    exact ⟨k, s', h1, h2, h3, h4, h5, by rw [h6, h7], trivial⟩
  read_end n s _ hn hv := by
    obtain ⟨e, s', h1, h2, h3, h4⟩ := E.read_end n s hn hv
    exact ⟨e, s', h1, h2, by rw [h3, h4], trivial⟩
  write bs s := E.write bs s
  flush s := by
    obtain ⟨s', h1, h2, h3, h4⟩ := E.flush s
    exact ⟨s', h1, h2, by rw [h3, h4, List.append_nil]⟩

theorem Untouched.readAll {T : Transport σ} {f : σ → φ} (U : Untouched T f) (size : Nat) (s : σ) :
    f (T.readAll size s).2 = f s := by
  have aux : ∀ (fuel : Nat) (got : Bytes) (err : GoErr) (s : σ), f (readAllLoop T.read size fuel got err s).2 = f s := by
    intro fuel
    induction fuel with
    | zero => intro got err s; rw [readAllLoop]; split <;> rfl
    | succ fuel ih =>
      intro got err s
      rw [readAllLoop]
      split
      · have := U.read (size - got.length) s
        rcases h : T.read (size - got.length) s with ⟨_ | _ | _, s'⟩
        · rw [h] at this
          simp only
          split
          · exact this
          · rw [ih]; exact this
        · rw [h] at this; exact this
        · rw [h] at this; exact this
      · rfl
  exact aux _ _ _ _

theorem Untouched.run {T : Transport σ} {f : σ → φ} (U : Untouched T f) (p : Prog α) (s : σ) : f (p.run T s).2 = f s := by
  induction p generalizing s with
  | ret a => rfl
  | panic => rfl
  | stuck => rfl
  | readAll n k ih =>
    have := U.readAll n s
    rw [Prog.run]
    rcases h : T.readAll n s with ⟨_ | _ | _, s'⟩ <;> rw [h] at this
    · exact (ih _ _).trans this
    · exact this
    · exact this
  | write bs k ih =>
    have := U.write bs s
    rw [Prog.run]
    rcases h : T.write bs s with ⟨_ | _ | _, s'⟩ <;> rw [h] at this
    · exact (ih _ _).trans this
    · exact this
    · exact this
  | flush k ih =>
    have := U.flush s
    rw [Prog.run]
    rcases h : T.flush s with ⟨_ | _ | _, s'⟩ <;> rw [h] at this
    · exact (ih _ _).trans this
    · exact this
    · exact this

section
variable {T : Transport σ} {inn out buf : σ → Bytes}

/-- `m` consumes `bs` and delivers `a`. -/
def Takes (T : Transport σ) (inn out buf : σ → Bytes) (m : P π α) (s s' : π) (bs : Bytes) (a : α) : Prop :=
  ∀ t rest, inn t = bs ++ rest → ∃ t', m.run T s t = (.ok (a, s'), t') ∧ inn t' = rest ∧ out t' ++ buf t' = out t ++ buf t

/-- `m` writes `bs`. -/
def Puts (T : Transport σ) (inn out buf : σ → Bytes) (m : P π α) (s s' : π) (bs : Bytes) (a : α) : Prop :=
  ∀ t, ∃ t', m.run T s t = (.ok (a, s'), t') ∧ inn t' = inn t ∧ out t' ++ buf t' = out t ++ buf t ++ bs

/-- `m` writes `bs` and holds nothing back. -/
def Sends (T : Transport σ) (inn out buf : σ → Bytes) (m : P π α) (s s' : π) (bs : Bytes) (a : α) : Prop :=
  ∀ t, ∃ t', m.run T s t = (.ok (a, s'), t') ∧ inn t' = inn t ∧ out t' = out t ++ buf t ++ bs ∧ buf t' = []

theorem Endpoint.takes (E : Endpoint T inn out buf) {m : P π α} {s s' : π} {bs : Bytes} {a : α} (h : Runs m s s' bs a) :
    Takes T inn out buf m s s' bs a := by
  intro t rest ht
  obtain ⟨t', h1, h2⟩ := E.faithful.simulateP m s t
  rw [ht, h] at h1 h2
  simp only [Prod.mk.injEq] at h2
  exact ⟨t', h1, h2.1.symm, h2.2.symm⟩

theorem Endpoint.puts (E : Endpoint T inn out buf) {m : P π GoErr} {s s' : π} {bs : Bytes} (h : Emits m s s' bs) :
    Puts T inn out buf m s s' bs none := by
  intro t
  obtain ⟨t', h1, h2⟩ := E.faithful.simulateP m s t
  rw [h] at h1 h2
  simp only [Prod.mk.injEq] at h2
  exact ⟨t', h1, h2.1.symm, h2.2.symm⟩

theorem Puts.bind {m : P π α} {k : α → P π β} {s s' s'' : π} {x y : Bytes} {a : α} {b : β}
    (h1 : Puts T inn out buf m s s' x a) (h2 : Puts T inn out buf (k a) s' s'' y b) :
    Puts T inn out buf (m >>= k) s s'' (x ++ y) b := by
  intro t
  obtain ⟨t1, e1, i1, o1⟩ := h1 t
  obtain ⟨t2, e2, i2, o2⟩ := h2 t1
  exact ⟨t2, by rw [P.run_bind, e1, andThen_ok, e2], i2.trans i1, by rw [o2, o1]; simp⟩

theorem Puts.sends {m : P π α} {k : α → P π β} {s s' s'' : π} {x y : Bytes} {a : α} {b : β}
    (h1 : Puts T inn out buf m s s' x a) (h2 : Sends T inn out buf (k a) s' s'' y b) :
    Sends T inn out buf (m >>= k) s s'' (x ++ y) b := by
  intro t
  obtain ⟨t1, e1, i1, o1⟩ := h1 t
  obtain ⟨t2, e2, i2, o2, b2⟩ := h2 t1
  exact ⟨t2, by rw [P.run_bind, e1, andThen_ok, e2], i2.trans i1, by rw [o2, o1]; simp, b2⟩

theorem Endpoint.flushes (E : Endpoint T inn out buf) (s : π) : Sends T inn out buf (P.tflush : P π GoErr) s s [] none := by
  intro t
  obtain ⟨t', h1, h2, h3, h4⟩ := E.flush t
  exact ⟨t', by rw [P.run_tflush, h1], h2, by rw [h3, List.append_nil], h4⟩

theorem Sends.map {m : P π α} {s s' : π} {x : Bytes} {a : α} (h : Sends T inn out buf m s s' x a) (k : α → P π β) (b : β)
    (hk : k a = Pure.pure b) : Sends T inn out buf (m >>= k) s s' x b := by
  intro t
  obtain ⟨t1, e1, h1⟩ := h t
  exact ⟨t1, by rw [P.run_bind, e1, andThen_ok, hk, P.run_pure], h1⟩

/-! ## Parts of the state -/

/-- The outcome with the object state put back in its place. -/
def putBack (set : π → τ) : Res (α × π) × σ → Res (α × τ) × σ
  | (.ok (a, x), t) => (.ok (a, set x), t)
  | (.panic, t) => (.panic, t)
  | (.stuck, t) => (.stuck, t)

@[simp] theorem putBack_ok (set : π → τ) (a : α) (x : π) (t : σ) : putBack set (.ok (a, x), t) = (.ok (a, set x), t) := rfl

theorem P.run_on (get : τ → π) (set : π → τ → τ) (m : P π α) (s : τ) (t : σ) :
    (P.on get set m).run T s t = putBack (fun x => set x s) (m.run T (get s) t) := by
  show ((m (get s)).bind _).run T t = _
  rw [Prog.run_bind]
  simp only [P.run, putBack]
  rcases (m (get s)).run T t with ⟨_ | _ | _, t'⟩ <;> rfl

theorem P.run_input (m : P ι α) (s : Server ι ω η) (t : σ) :
    (P.input m : P (Server ι ω η) α).run T s t = putBack (fun x => { s with iprot := x }) (m.run T s.iprot t) := P.run_on ..

theorem P.run_output (m : P ω α) (s : Server ι ω η) (t : σ) :
    (P.output m : P (Server ι ω η) α).run T s t = putBack (fun x => { s with oprot := x }) (m.run T s.oprot t) := P.run_on ..

theorem Client.run_out (m : P π α) (c : Client π) (o : π) (h : c.output = some o) (t : σ) :
    (Client.out m).run T c t = putBack (fun x => { c with output := some x }) (m.run T o t) := by
  show (Client.out m c).run T t = _
  simp only [Client.out, h]
  rw [Prog.run_bind]
  simp only [P.run, putBack]
  rcases (m o).run T t with ⟨_ | _ | _, t'⟩ <;> rfl

theorem Client.run_inp (m : P π α) (c : Client π) (i : π) (h : c.input = some i) (t : σ) :
    (Client.inp m).run T c t = putBack (fun x => { c with input := some x }) (m.run T i t) := by
  show (Client.inp m c).run T t = _
  simp only [Client.inp, h]
  rw [Prog.run_bind]
  simp only [P.run, putBack]
  rcases (m i).run T t with ⟨_ | _ | _, t'⟩ <;> rfl

/-! ## The pieces of a processor -/

theorem Endpoint.sends_exception (E : Endpoint T inn out buf) {p : Proto ω} {name : Bytes} {x : AppExc} {q : I32} {o o₁ o₂ o₃ : ω}
    {h b e : Bytes} (h1 : Emits (p.writeMessageBegin name EXCEPTION q) o o₁ h) (h2 : Emits (appWrite p x) o₁ o₂ b)
    (h3 : Emits p.writeMessageEnd o₂ o₃ e) :
    Sends T inn out buf (sendException p name x q) o o₃ (h ++ (b ++ (e ++ []))) () := by
  unfold Thrift.sendException
  refine (E.puts h1).sends ((E.puts h2).sends ((E.puts h3).sends ?_))
  exact (E.flushes _).map _ _ rfl

theorem Endpoint.sends_reply (E : Endpoint T inn out buf) {p : Proto ω} {S : Schema} {fuel : Nat} {m : Method} {r : Attrs} {q : I32}
    {o o₁ o₂ o₃ : ω} {h b e : Bytes} (h1 : Emits (p.writeMessageBegin m.name REPLY q) o o₁ h)
    (h2 : Emits (genWriteResult p S fuel (S.structs m.result) r) o₁ o₂ b) (h3 : Emits p.writeMessageEnd o₂ o₃ e) :
    Sends T inn out buf (sendReply p S fuel m r q) o o₃ (h ++ (b ++ (e ++ []))) none := by
  unfold Thrift.sendReply
  refine (E.puts h1).sends ((E.puts h2).sends ((E.puts h3).sends ?_))
  exact (E.flushes _).map _ _ rfl

/-- `m` consumes the request, writes the reply and holds nothing back. -/
def Serves (T : Transport σ) (inn out buf : σ → Bytes) (m : P π α) (s s' : π) (req reply : Bytes) (a : α) : Prop :=
  ∀ t rest, inn t = req ++ rest → ∃ t', m.run T s t = (.ok (a, s'), t') ∧ inn t' = rest ∧ out t' = out t ++ buf t ++ reply ∧
    buf t' = []

section processor
variable {ip : Proto ι} {op : Proto ω} {S : Schema} {L : FloatLib} {mem : List Nat → Nat} {msd : Int} {fuel : Nat}
  {sv : Service η} {m : Method} {q : I32} {i i₁ i₂ : ι} {o o' : ω} {h h' : η}

theorem serves_input {α β : Type} {k : P ι α} {f : α → P (Server ι ω η) β} {a : α} {x y : Bytes} {s' : Server ι ω η} {b : β}
    (h1 : Takes T inn out buf k i i₁ x a) (h2 : Serves T inn out buf (f a) ⟨i₁, o, h⟩ s' y z b) :
    Serves T inn out buf (P.input k >>= f) ⟨i, o, h⟩ s' (x ++ y) z b := by
  intro t rest ht
  rw [List.append_assoc] at ht
  obtain ⟨t1, e1, j1, o1⟩ := h1 t _ ht
  obtain ⟨t2, e2, j2, o2, b2⟩ := h2 t1 rest j1
  refine ⟨t2, ?_, j2, by rw [o2, o1], b2⟩
  rw [P.run_bind, P.run_input, e1, putBack_ok, andThen_ok, e2]

theorem serves_output {α β : Type} {k : P ω α} {f : α → P (Server ι ω η) β} {a : α} {z : Bytes} {b : β}
    (h1 : Sends T inn out buf k o o' z a) (h2 : f a = Pure.pure b) :
    Serves T inn out buf (P.output k >>= f) ⟨i, o, h⟩ ⟨i, o', h⟩ [] z b := by
  intro t rest ht
  obtain ⟨t1, e1, j1, o1, b1⟩ := h1 t
  refine ⟨t1, ?_, by rw [j1, ht]; rfl, o1, b1⟩
  rw [P.run_bind, P.run_output, e1, putBack_ok, andThen_ok, h2, P.run_pure]

/-- The handler succeeds. -/
theorem Endpoint.serves_reply (E : Endpoint T inn out buf) {as r : Attrs} {body reply : Bytes} {e : GoErr}
    (h1 : Runs (genRead ip S L mem msd fuel [] (S.structs m.args)) i i₁ body (as, none))
    (h2 : Runs ip.readMessageEnd i₁ i₂ [] e) (hh : sv.handle m h as = ((r, none), h'))
    (h3 : Sends T inn out buf (sendReply op S fuel m (if m.oneway then (S.structs m.result).fresh S else r) q) o o' reply none) :
    Serves T inn out buf (processMethod ip op S L mem msd fuel sv m q) ⟨i, o, h⟩ ⟨i₂, o', h'⟩ body reply (true, none) := by
  rw [← List.append_nil body, ← List.append_nil ([] : Bytes)]
  unfold processMethod
  refine serves_input (E.takes h1) (serves_input (E.takes h2) ?_)
  intro t rest ht
  obtain ⟨t', e1, k⟩ := (serves_output (i := i₂) (h := h') h3 rfl : Serves T inn out buf (P.output (sendReply op S fuel m
    (if m.oneway then (S.structs m.result).fresh S else r) q) >>= fun err =>
    (Pure.pure (err.isNone, err) : P (Server ι ω η) _)) _ _ _ _ _) t rest ht
  refine ⟨t', Eq.trans ?_ e1, k⟩
  simp only [P.run_bind, P.run_get, andThen_ok, hh, P.run_modify]

/-- The handler fails. -/
theorem Endpoint.serves_failure (E : Endpoint T inn out buf) {as r : Attrs} {body reply : Bytes} {e : GoErr} {x : Err}
    (h1 : Runs (genRead ip S L mem msd fuel [] (S.structs m.args)) i i₁ body (as, none))
    (h2 : Runs ip.readMessageEnd i₁ i₂ [] e) (hh : sv.handle m h as = ((r, some x), h'))
    (h3 : Sends T inn out buf (sendException op m.name (newTApplicationException INTERNAL_ERROR
        (ascii "Internal error processing " ++ m.name ++ ascii ": " ++ x.msg)) q) o o' reply ()) :
    Serves T inn out buf (processMethod ip op S L mem msd fuel sv m q) ⟨i, o, h⟩ ⟨i₂, o', h'⟩ body reply (false, some x) := by
  rw [← List.append_nil body, ← List.append_nil ([] : Bytes)]
  unfold processMethod
  refine serves_input (E.takes h1) (serves_input (E.takes h2) ?_)
  intro t rest ht
  obtain ⟨t', e1, k⟩ := (serves_output (i := i₂) (h := h') h3 rfl : Serves T inn out buf (P.output (sendException op m.name
    (newTApplicationException INTERNAL_ERROR (ascii "Internal error processing " ++ m.name ++ ascii ": " ++ x.msg)) q) >>= fun _ =>
    (Pure.pure (false, some x) : P (Server ι ω η) _)) _ _ _ _ _) t rest ht
  refine ⟨t', ?_, k⟩
  rw [← e1]
  simp only [P.run_bind, P.run_get, andThen_ok, hh, P.run_modify]

/-- The arguments cannot be read. -/
theorem Endpoint.serves_malformed (E : Endpoint T inn out buf) {as : Attrs} {body reply : Bytes} {e : GoErr} {x : Err}
    (h1 : Runs (genRead ip S L mem msd fuel [] (S.structs m.args)) i i₁ body (as, some x))
    (h2 : Runs ip.readMessageEnd i₁ i₂ [] e)
    (h3 : Sends T inn out buf (sendException op m.name (newTApplicationException PROTOCOL_ERROR x.msg) q) o o' reply ()) :
    Serves T inn out buf (processMethod ip op S L mem msd fuel sv m q) ⟨i, o, h⟩ ⟨i₂, o', h⟩ body reply (false, some x) := by
  rw [← List.append_nil body, ← List.append_nil ([] : Bytes)]
  unfold processMethod
  exact serves_input (E.takes h1) (serves_input (E.takes h2) (serves_output h3 rfl))

/-- The method is unknown. -/
theorem Endpoint.serves_unknown (E : Endpoint T inn out buf) {name body reply : Bytes} {e e' : GoErr}
    (h1 : Runs (skipDefaultDepth ip msd fuel TT.STRUCT) i i₁ body e) (h2 : Runs ip.readMessageEnd i₁ i₂ [] e')
    (h3 : Sends T inn out buf (sendException op name (newTApplicationException UNKNOWN_METHOD (ascii "Unknown function " ++ name)) q)
      o o' reply ()) :
    Serves T inn out buf (processUnknown ip op msd fuel name q : P (Server ι ω η) _) ⟨i, o, h⟩ ⟨i₂, o', h⟩ body reply
      (false, some (newTApplicationException UNKNOWN_METHOD (ascii "Unknown function " ++ name)).err) := by
  rw [← List.append_nil body, ← List.append_nil ([] : Bytes)]
  unfold processUnknown
  exact serves_input (E.takes h1) (serves_input (E.takes h2) (serves_output h3 rfl))

/-- `Process` reads the header and goes on with the method. -/
theorem Endpoint.serves_known (E : Endpoint T inn out buf) {name hd body reply : Bytes} {ty : I32} {s' : Server ι ω η} {a : Bool × GoErr}
    (h1 : Runs ip.readMessageBegin i i₁ hd ((name, ty, q), none)) (hf : sv.find name = some m)
    (h2 : Serves T inn out buf (processMethod ip op S L mem msd fuel sv m q) ⟨i₁, o, h⟩ s' body reply a) :
    Serves T inn out buf (process ip op S L mem msd fuel sv) ⟨i, o, h⟩ s' (hd ++ body) reply a := by
  unfold process
  refine serves_input (E.takes h1) ?_
  simp only [Option.isSome_none, Bool.false_eq_true, if_false, hf]
  exact h2

theorem Endpoint.serves_other (E : Endpoint T inn out buf) {name hd body reply : Bytes} {ty : I32} {s' : Server ι ω η} {a : Bool × GoErr}
    (h1 : Runs ip.readMessageBegin i i₁ hd ((name, ty, q), none)) (hf : sv.find name = none)
    (h2 : Serves T inn out buf (processUnknown ip op msd fuel name q) ⟨i₁, o, h⟩ s' body reply a) :
    Serves T inn out buf (process ip op S L mem msd fuel sv) ⟨i, o, h⟩ s' (hd ++ body) reply a := by
  unfold process
  refine serves_input (E.takes h1) ?_
  simp only [Option.isSome_none, Bool.false_eq_true, if_false, hf]
  exact h2

end processor
end
end Thrift
