import Verif.Lemmas.RequestLoop
import Verif.Props.Service
import Verif.Props.Processor
/-!
# Connections of a server
-/

namespace Thrift

/-! ## C195: requests on one connection -/

/-- C195 for some methods and errors of the handler.  The requests that arrive on a
connection are answered one by one and in order, up to the last of them. -/
def C195_for (known : Prop) (errors : GoErr → Prop) : Prop :=
  ∀ {σ η : Type} {T : Transport σ} {inn out buf : σ → Bytes} {S : Schema} (L : FloatLib) (mem : List Nat → Nat) (msd : Int)
    {sv : Service η} {i : Bin} (o : Bin), Endpoint T inn out buf → S.Ok → i.checkReadLength = false → ∀ (asks : List Ask) (h : η),
    (∀ a ∈ asks, a.Proper i.strictRead ∧ a.Fit S L mem msd sv) → (known → ∀ a ∈ asks, ∃ m ∈ sv.methods, m.name = a.name) →
    (∀ m h as, errors (sv.handle m h as).1.2) →
    ∃ replies h' N, Talk S L mem msd sv o.strictWrite h asks replies [] h' ∧ replies.length = asks.length ∧
      ∀ fuel, N ≤ fuel → ∀ stopped t, inn t = (asks.map Ask.bytes).flatten → ∃ t',
      (requestLoop (process binary binary S L mem msd fuel sv) stopped (asks.length + 1) 0).run T ⟨i, o, h⟩ t =
        (.ok ((), ⟨i, o, h'⟩), t') ∧ inn t' = [] ∧ out t' ++ buf t' = out t ++ buf t ++ replies.flatten

def C195_statement : Prop := C195_for False (fun _ => True)

/-- A request to add 5. -/
def addAsk (q : I32) : Ask := ⟨true, ascii "add", CALL, q, .cons 1 (.i32 5) .nil⟩

theorem add_understood : Understood sumSchema noFloats (fun _ => 0) 64 (sumSchema.structs 0) (.cons 1 (.i32 5) .nil) [(1, .int32 5)] := by
  refine ⟨10, fun fuel hf i hi rest x => ?_⟩
  exact Bin.reads_object (L := noFloats) (mem := fun _ => 0) (msd := 64) (S := sumSchema) (path := []) sumSchema_ok i hi
    (sumSchema_ok 0) (show (Fields.cons 1 (.i32 5) .nil).size ≤ fuel from Nat.le_trans (by decide) hf) ⟨trivial, trivial⟩
    ⟨by intro m hm _; rw [List.mem_singleton.1 hm]; trivial, by decide, trivial⟩ rfl rest x

theorem addAsk_proper (q : I32) (b : Bool) : (addAsk q).Proper b := ⟨show (ascii "add").length + 17 < 2 ^ 31 by decide, show CALL.toNat < 256 by decide, .inl rfl, ⟨trivial, trivial⟩⟩

theorem addAsk_fit (q : I32) : (addAsk q).Fit sumSchema noFloats (fun _ => 0) 64 sumService := by
  refine .inr ⟨addMethod, _, rfl, add_understood, ?_, fun h r e h' hh => by simp [sumService] at hh⟩
  rw [if_neg (by decide)]
  exact ⟨sum_resultDef, fun h r h' hh => (add_sound 5).fine h _ r h' hh⟩

theorem addAsk_fails (q : I32) : (addAsk q).Fit sumSchema noFloats (fun _ => 0) 64 failService := by
  refine .inr ⟨addMethod, _, rfl, add_understood, ?_, fun h r e h' hh => ?_⟩
  · rw [if_neg (by decide)]
    exact ⟨sum_resultDef, fun h r h' hh => by simp [failService] at hh⟩
  · simp only [failService, Prod.mk.injEq, Option.some.injEq] at hh
    rw [← hh.1.2]; decide

/-- The bytes left on the connection. -/
def loopEnd {π : Type} : Res (Unit × π) × (Bytes × Bytes) → Option Bytes
  | (.ok _, t) => some t.1
  | _ => none

/-- After an error of the handler the requests behind it are not even read. -/
theorem C195_error_violated : ¬ C195_for True (fun _ => True) := by
  intro h
  obtain ⟨replies, h', N, -, -, h1⟩ := h (S := sumSchema) (sv := failService) (i := Bin.default) noFloats (fun _ => 0) 64 Bin.default pipe_server
    sumSchema_ok rfl [addAsk 1, addAsk 2] ()
    (by
      intro a ha
      simp only [List.mem_cons, List.not_mem_nil, or_false] at ha
      rcases ha with rfl | rfl <;> exact ⟨addAsk_proper _ _, addAsk_fails _⟩)
    (by
      intro _ a ha
      simp only [List.mem_cons, List.not_mem_nil, or_false] at ha
      rcases ha with rfl | rfl <;> exact ⟨addMethod, List.mem_singleton.2 rfl, rfl⟩) (fun _ _ _ => trivial)
  obtain ⟨t', h2, h3, -⟩ := h1 (N + 10) (by omega) (fun _ => false) (([addAsk 1, addAsk 2].map Ask.bytes).flatten, []) rfl
  have h4 : loopEnd ((requestLoop (process binary binary sumSchema noFloats (fun _ => 0) 64 (N + 10) failService) (fun _ => false) 3 0).run
      pipeServer ⟨Bin.default, Bin.default, ()⟩ (([addAsk 1, addAsk 2].map Ask.bytes).flatten, [])) = some (addAsk 2).bytes := by kernel_rfl
  rw [show ([addAsk 1, addAsk 2].length + 1) = 3 from rfl] at h2
  rw [h2] at h4
  simp only [loopEnd, Option.some.injEq] at h4
  rw [h4] at h3
  cases h3

/-- Nor are those behind a request for an unknown method. -/
theorem C195_unknown_violated : ¬ C195_for False (· = none) := by
  intro h
  obtain ⟨replies, h', N, -, -, h1⟩ := h (S := sumSchema) (sv := sumService) (i := Bin.default) noFloats (fun _ => 0) 64 Bin.default pipe_server
    sumSchema_ok rfl [⟨true, ascii "sub", CALL, 1, .nil⟩, addAsk 2] 0
    (by
      intro a ha
      simp only [List.mem_cons, List.not_mem_nil, or_false] at ha
      rcases ha with rfl | rfl
      · exact ⟨⟨by decide, by decide, .inl rfl, trivial⟩, .inl (by decide)⟩
      · exact ⟨addAsk_proper _ _, addAsk_fit _⟩) (fun h => h.elim) (fun _ _ _ => rfl)
  obtain ⟨t', h2, h3, -⟩ := h1 (N + 10) (by omega) (fun _ => false) (([(⟨true, ascii "sub", CALL, 1, .nil⟩ : Ask), addAsk 2].map Ask.bytes).flatten, []) rfl
  have h4 : loopEnd ((requestLoop (process binary binary sumSchema noFloats (fun _ => 0) 64 (N + 10) sumService) (fun _ => false) 3 0).run
      pipeServer ⟨Bin.default, Bin.default, 0⟩ (([(⟨true, ascii "sub", CALL, 1, .nil⟩ : Ask), addAsk 2].map Ask.bytes).flatten, [])) =
      some (addAsk 2).bytes := by kernel_rfl
  rw [show ([(⟨true, ascii "sub", CALL, 1, .nil⟩ : Ask), addAsk 2].length + 1) = 3 from rfl] at h2
  rw [h2] at h4
  simp only [loopEnd, Option.some.injEq] at h4
  rw [h4] at h3
  cases h3

theorem C195_violated : ¬ C195_statement := fun h =>
  C195_error_violated fun {_ _ _ _ _ _ _} L mem msd {_ _} o E hS hi asks x h1 _ h3 => h L mem msd o E hS hi asks x h1 (fun f => f.elim) h3

theorem Talk.count {S : Schema} {L : FloatLib} {mem : List Nat → Nat} {msd : Int} {η : Type} {sv : Service η} {strict : Bool} {h h' : η}
    {asks left : List Ask} {replies : List Bytes} (t : Talk S L mem msd sv strict h asks replies left h') :
    replies.length + left.length = asks.length := by
  induction t with
  | done => rfl
  | reply _ _ _ _ _ _ ih => simp only [List.length_cons]; omega
  | oneway _ _ _ _ _ ih => simp only [List.length_cons]; omega
  | failed => simp only [List.length_cons, List.length_nil]; omega
  | unknown => simp only [List.length_cons, List.length_nil]; omega

/-- C195 with the whole truth about errors: the requests are answered in order up to
and including the first one that gets an exception, whatever the flag of the server
says meanwhile; what is behind that one stays unread. -/
theorem C195_until_error_partial {σ η : Type} {T : Transport σ} {inn out buf : σ → Bytes} {S : Schema} (L : FloatLib)
    (mem : List Nat → Nat) (msd : Int) {sv : Service η} {i : Bin} (o : Bin) (E : Endpoint T inn out buf) (hS : S.Ok)
    (hi : i.checkReadLength = false) (asks : List Ask) (h : η) (ha : ∀ a ∈ asks, a.Proper i.strictRead ∧ a.Fit S L mem msd sv) :
    ∃ replies left h' N, Talk S L mem msd sv o.strictWrite h asks replies left h' ∧ replies.length + left.length = asks.length ∧
      ∀ fuel, N ≤ fuel → ∀ stopped t, inn t = (asks.map Ask.bytes).flatten → ∃ t',
      (requestLoop (process binary binary S L mem msd fuel sv) stopped (asks.length + 1) 0).run T ⟨i, o, h⟩ t =
        (.ok ((), ⟨i, o, h'⟩), t') ∧ inn t' = (left.map Ask.bytes).flatten ∧
        out t' ++ buf t' = out t ++ buf t ++ replies.flatten := by
  obtain ⟨replies, left, h', N, h1, h2⟩ := E.talk (L := L) (mem := mem) (msd := msd) (sv := sv) (o := o) hS hi asks h ha
  exact ⟨replies, left, h', N, h1, h1.count, fun fuel hf stopped t ht => h2 fuel hf stopped _ 0 t (by omega) ht⟩

/-- C195 for known methods and handlers without errors. -/
theorem C195_partial : C195_for True (· = none) := by
  intro σ η T inn out buf S L mem msd sv i o E hS hi asks h ha hk he
  obtain ⟨replies, left, h', N, h1, h2, h3⟩ := C195_until_error_partial L mem msd o E hS hi asks h ha
  have : left = [] := by
    clear h3 h2 ha
    replace hk := hk trivial
    induction h1 with
    | done => rfl
    | reply _ _ _ _ _ _ ih => exact ih fun a ha => hk a (List.mem_cons_of_mem _ ha)
    | oneway _ _ _ _ _ ih => exact ih fun a ha => hk a (List.mem_cons_of_mem _ ha)
    | failed _ _ run =>
      have h6 := congrArg (fun x => x.1.2) run
      rw [show _ = none from he _ _ _] at h6
      cases h6
    | unknown hu =>
      obtain ⟨m, hm, hn⟩ := hk _ List.mem_cons_self
      exact absurd hn (hu m hm)
  subst this
  exact ⟨replies, h', N, h1, by simpa using h2, h3⟩

/-- The hypotheses are met: two requests, the second of which sees the effect of the
first. -/
example := C195_partial (S := sumSchema) (sv := sumService) (i := Bin.default) noFloats (fun _ => 0) 64 Bin.default pipe_server
    sumSchema_ok rfl [addAsk 1, addAsk 2] 0
    (by
      intro a ha
      simp only [List.mem_cons, List.not_mem_nil, or_false] at ha
      rcases ha with rfl | rfl <;> exact ⟨addAsk_proper _ _, addAsk_fit _⟩)
    (by
      intro _ a ha
      simp only [List.mem_cons, List.not_mem_nil, or_false] at ha
      rcases ha with rfl | rfl <;> exact ⟨addMethod, by simp [sumService], rfl⟩) (fun _ _ _ => rfl)

/-- Stopping the server does not touch the connections it has: what the request loop
does, on any connection and with any protocols, does not depend on the flag. -/
theorem C195_flag {ι ω η σ : Type} (ip : Proto ι) (op : Proto ω) (S : Schema) (L : FloatLib) (mem : List Nat → Nat) (msd : Int)
    (fuel : Nat) (sv : Service η) (T : Transport σ) (stopped stopped' : Nat → Bool) (rounds k : Nat) (s : Server ι ω η) (t : σ) :
    (requestLoop (process ip op S L mem msd fuel sv) stopped rounds k).run T s t =
      (requestLoop (process ip op S L mem msd fuel sv) stopped' rounds k).run T s t := by
  induction rounds generalizing k s t with
  | zero => rfl
  | succ n ih =>
    rw [requestLoop, requestLoop, P.run_bind, P.run_bind]
    rcases h : (process ip op S L mem msd fuel sv).run T s t with ⟨_ | _ | _, t'⟩
    · rename_i a
      obtain ⟨⟨ok, e⟩, s'⟩ := a
      have := C95_ok_iff_no_error ip op S L mem msd fuel sv T s s' t t' ok e h
      simp only [andThen_ok]
      cases e with
      | none => cases this.2 rfl; exact ih _ _ _
      | some e =>
        have hok : ok = false := by cases ok with
          | false => rfl
          | true => cases this.1 rfl
        subst hok
        cases stopped k <;> cases stopped' k <;> rfl
    · rfl
    · rfl

/-! ## C196: requests ahead of replies -/

/-- C196.  The two halves of a call are public: a client that sends two requests and
then asks for the two replies gets the results of the two calls. -/
def C196_statement : Prop :=
  ∀ {σ η : Type} {C V : Transport σ} {up down cbuf vbuf : σ → Bytes} {S : Schema} (L : FloatLib) (mem : List Nat → Nat) (msd : Int)
    {sv : Service η} {f i o : Bin}, Link C V up down cbuf vbuf → S.Ok → Compatible f i o → ∀ (m₁ m₂ : Method) (a₁ a₂ : Attrs) (h : η),
    Sound S sv m₁ a₁ → Sound S sv m₂ a₂ → m₁.oneway = false → m₂.oneway = false → (∀ m h as, (sv.handle m h as).1.2 = none) →
    ∃ r₁ r₂ N, Answered S sv h [(m₁, a₁), (m₂, a₂)] [r₁, r₂] ∧ ∀ fuel, N ≤ fuel → ∀ t, Settled up down cbuf vbuf t → ∃ c' x,
      (do
        let _ ← Client.send binary S fuel m₁ a₁
        let _ ← Client.send binary S fuel m₂ a₂
        let r₁ ← Client.recv binary S L mem msd fuel m₁
        let r₂ ← Client.recv binary S L mem msd fuel m₂
        return [r₁, r₂]).run (served C V (process binary binary S L mem msd fuel sv))
          (Client.ofFactory f) (some ⟨i, o, h⟩, t) = (.ok ([r₁, r₂], c'), x)

/-- The first reply is refused, as its sequence id is not the last one sent. -/
theorem C196_violated : ¬ C196_statement := by
  intro h
  obtain ⟨r₁, r₂, N, h1, h2⟩ := h (sv := sumService) noFloats (fun _ => 0) 64 pipe_link sumSchema_ok
    (f := Bin.default) (i := Bin.default) (o := Bin.default) ⟨rfl, rfl, .inl rfl, .inl rfl⟩
    addMethod addMethod [(1, .int32 5)] [(1, .int32 2)] 0 (add_sound 5) (add_sound 2) rfl rfl (fun _ _ _ => rfl)
  obtain ⟨c', x, h3⟩ := h2 (N + 10) (by omega) ([], []) ⟨rfl, rfl, rfl, rfl⟩
  have h4 : (callResults ((do
        let _ ← Client.send binary sumSchema (N + 10) addMethod [(1, .int32 5)]
        let _ ← Client.send binary sumSchema (N + 10) addMethod [(1, .int32 2)]
        let r₁ ← Client.recv binary sumSchema noFloats (fun _ => 0) 64 (N + 10) addMethod
        let r₂ ← Client.recv binary sumSchema noFloats (fun _ => 0) 64 (N + 10) addMethod
        return [r₁, r₂] : P (Client Bin) _).run
      (served pipeClient pipeServer (process binary binary sumSchema noFloats (fun _ => 0) 64 (N + 10) sumService))
      (Client.ofFactory Bin.default) (some ⟨Bin.default, Bin.default, 0⟩, ([], [])))).bind (·.head?) =
      some (none, some outOfSequence) := by kernel_rfl
  rw [h3] at h4
  cases h4
  cases h1 with
  | cons a r ret rest =>
    simp only [sumService, Prod.mk.injEq] at r
    obtain ⟨⟨-, rfl⟩, -⟩ := r
    obtain ⟨r', h5, -⟩ := ret
    cases h5

/-- Whatever the connection and the protocol do: a request sent takes the next
sequence id. -/
theorem send_seqId {π σ : Type} (p : Proto π) (S : Schema) (fuel : Nat) (m : Method) (a : Attrs) (T : Transport σ) (c c' : Client π)
    (t t' : σ) (e : GoErr) (h : (Client.send p S fuel m a).run T c t = (.ok (e, c'), t')) : c'.seqId = c.seqId + 1 := by
  have out {α : Type} (k : P π α) (n : I32) (c : Client π) (hc : c.seqId = n) : (Client.out k c).All fun x => x.2.seqId = n := by
    unfold Client.out
    cases c.output with
    | none => exact trivial
    | some o => exact Prog.All.bind (Prog.All.top _) fun x _ => hc
  have key : (Client.send p S fuel m a c).All fun x => x.2.seqId = c.seqId + 1 := by
    have bind {α β : Type} {k : P (Client π) α} {g : α → P (Client π) β} {c : Client π} {n : I32}
        (h1 : (k c).All fun x => x.2.seqId = n) (h2 : ∀ a c', c'.seqId = n → (g a c').All fun x => x.2.seqId = n) :
        ((k >>= g) c).All fun x => x.2.seqId = n := Prog.All.bind h1 fun x hx => h2 x.1 x.2 hx
    have first : ((Client.renewOutput : P (Client π) Unit) c).All fun x => x.2.seqId = c.seqId := by
      unfold Client.renewOutput
      cases c.output with
      | none => exact rfl
      | some o => cases c.factory with
        | none => exact trivial
        | some f => exact rfl
    refine Prog.All.bind first fun x hx => ?_
    obtain ⟨_, c₁⟩ := x
    simp only at hx
    refine Prog.All.bind (Q := fun x => x.2.seqId = c.seqId + 1) (by exact congrArg (· + 1) hx) fun x hx => ?_
    refine bind (k := P.get) hx fun c₂ c₃ h3 => ?_
    refine bind (out _ _ _ h3) fun _ c₄ h4 => bind (out _ _ _ h4) fun e c₅ h5 => bind (out _ _ _ h5) fun _ c₆ h6 => ?_
    exact bind (k := P.tflush) (by exact fun _ => h6) fun _ c₇ h7 => h7
  exact key.run T t t' _ h

/-- C196, what becomes of it: after two requests, the reply to the first one is
refused, on any connection; its result stays unread. -/
theorem C196_partial {σ : Type} {T : Transport σ} {inn out buf : σ → Bytes} (S : Schema) (L : FloatLib) (mem : List Nat → Nat)
    (msd : Int) (fuel : Nat) (E : Endpoint T inn out buf) (m₁ m₂ : Method) (a₁ a₂ : Attrs) (c c₁ c₂ : Client Bin) (i : Bin)
    (t t₁ t₂ : σ) (e₁ e₂ : GoErr) (h1 : (Client.send binary S fuel m₁ a₁).run T c t = (.ok (e₁, c₁), t₁))
    (h2 : (Client.send binary S fuel m₂ a₂).run T c₁ t₁ = (.ok (e₂, c₂), t₂)) (hc : c₂.input = some i)
    (hi : i.checkReadLength = false) (strict : Bool) (hs : strict = true ∨ i.strictRead = false) (hn : m₁.name.length < 2 ^ 31)
    (t₃ : σ) (rest : Bytes) (ht : inn t₃ = BinarySpec.message strict m₁.name REPLY (c.seqId + 1) ++ rest) :
    ∃ t', (Client.recv binary S L mem msd fuel m₁).run T c₂ t₃ =
        (.ok ((none, some ⟨.application, 4, ascii "ping failed: out of sequence response"⟩), c₂), t') ∧ inn t' = rest := by
  have hq := send_seqId binary S fuel m₂ a₂ T c₁ c₂ t₁ t₂ e₂ h2
  rw [← send_seqId binary S fuel m₁ a₁ T c c₁ t t₁ e₁ h1] at ht
  refine C59_partial S L mem msd fuel m₁ c₂ i strict m₁.name REPLY c₁.seqId E hc hn (by decide) hi hs ?_ (by decide) t₃ rest ht
  rw [hq]
  intro h
  have : (1 : I32) = 0 := by
    have := congrArg (· - c₁.seqId) h
    simp only [BitVec.sub_self] at this
    rw [BitVec.add_comm, BitVec.add_sub_cancel] at this
    exact this.symm
  exact absurd this (by decide)

example (rest : Bytes) : ∃ t', (Client.recv binary sumSchema noFloats (fun _ => 0) 64 9 addMethod).run pipeClient
    { Client.ofFactory Bin.default with seqId := 2 } ([], BinarySpec.message true (ascii "add") REPLY 1 ++ rest) =
    (.ok ((none, some ⟨.application, 4, ascii "ping failed: out of sequence response"⟩), { Client.ofFactory Bin.default with seqId := 2 }), t') ∧
    t'.2 = rest :=
  C196_partial sumSchema noFloats (fun _ => 0) 64 9 pipe_client addMethod addMethod [(1, .int32 5)] [(1, .int32 2)]
    (Client.ofFactory Bin.default) { Client.ofFactory Bin.default with seqId := 1 } _ Bin.default ([], []) _ _ none none rfl rfl rfl rfl
    true (.inl rfl) (by decide) _ rest rfl

/-! ## C197: how servers are put together -/

/-- What a server does with a connection: the processor is the one given; the
protocols sit on the connection as wrapped for their direction; both wrapped
connections are closed in the end.  The constructor with four arguments uses one
factory for both directions, the one with two the connection itself and the binary
protocol with old headers allowed and new ones written. -/
theorem C197_session {κ l ρ φ : Type} (p : ρ) (st : l) (itf otf : κ → κ) (ipf opf : κ → φ) (client : κ) :
    (TServer.new6 p st itf otf ipf opf).session client = ⟨p, ipf (itf client), opf (otf client), [otf client, itf client]⟩ ∧
    (TServer.new4 p st itf ipf).session client = ⟨p, ipf (itf client), ipf (itf client), [itf client, itf client]⟩ ∧
    (TServer.new2 p st).session client = ⟨p, (client, ⟨false, true, 0, false⟩), (client, ⟨false, true, 0, false⟩), [client, client]⟩ ∧
    (TServer.new6 p st itf otf ipf opf).serverTransport = st ∧ (TServer.new4 p st itf ipf).serverTransport = st ∧
    (TServer.new2 (κ := κ) p st).serverTransport = st := ⟨rfl, rfl, rfl, rfl, rfl, rfl⟩

/-- The constructors that take a factory of processors ask it for every connection. -/
theorem C197_factories {κ l ρ φ : Type} (pf : κ → ρ) (st : l) (itf otf : κ → κ) (ipf opf : κ → φ) (client : κ) :
    ((TServer.factory6 pf st itf otf ipf opf).session client).processor = pf client ∧
    (TServer.factory4 pf st itf ipf).session client =
      { (TServer.new4 (pf client) st itf ipf).session client with processor := pf client } ∧
    (TServer.factory2 pf st).session client =
      { (TServer.new2 (pf client) st).session client with processor := pf client } := ⟨rfl, rfl, rfl⟩

/-- C197 for some settings of the factory.  A client and a server that are made with
the same factory for the binary protocol understand each other. -/
def C197_for (settings : Bool → Bool → Prop) : Prop :=
  ∀ {σ η κ l : Type} {C V : Transport σ} {up down cbuf vbuf : σ → Bytes} {S : Schema} (L : FloatLib) (mem : List Nat → Nat) (msd : Int)
    {sv : Service η} (sr sw : Bool) (st : l) (tf : κ → κ) (mine yours : κ), settings sr sw → Link C V up down cbuf vbuf → S.Ok →
    ∀ (cs : List (Method × Attrs)) (h : η), (∀ c ∈ cs, Sound S sv c.1 c.2 ∧ c.1.oneway = false) →
    (∀ m h as, (sv.handle m h as).1.2 = none) →
    ∃ rs N, Answered S sv h cs rs ∧ ∀ fuel, N ≤ fuel → ∀ t, Settled up down cbuf vbuf t → ∃ c' x,
      let server := (TServer.new4 (process binary binary S L mem msd fuel sv) st tf (newTBinaryProtocolFactory sr sw)).session yours
      (callAll (Client.call binary S L mem msd fuel) cs).run (served C V server.processor)
        (Client.ofFactory (newTBinaryProtocolFactory sr sw mine).2) (some ⟨server.input.2, server.output.2, h⟩, t) = (.ok (rs, c'), x)

def C197_statement : Prop := C197_for fun _ _ => True

/-- A factory that allows new headers only and writes old ones. -/
theorem C197_violated : ¬ C197_statement := by
  intro h
  obtain ⟨rs, N, h1, h2⟩ := h (κ := Unit) (sv := sumService) noFloats (fun _ => 0) 64 true false () id () () trivial pipe_link sumSchema_ok
    [(addMethod, [(1, .int32 5)])] 0
    (by
      intro c hc
      rw [List.mem_singleton.1 hc]
      exact ⟨add_sound 5, rfl⟩) (fun _ _ _ => rfl)
  obtain ⟨c', x, h3⟩ := h2 (N + 10) (by omega) ([], []) ⟨rfl, rfl, rfl, rfl⟩
  have h4 : callResults ((callAll (Client.call binary sumSchema noFloats (fun _ => 0) 64 (N + 10)) [(addMethod, [(1, .int32 5)])]).run
      (served pipeClient pipeServer (process binary binary sumSchema noFloats (fun _ => 0) 64 (N + 10) sumService))
      (Client.ofFactory (Bin.new true false)) (some ⟨Bin.new true false, Bin.new true false, 0⟩, ([], []))) =
      some [(none, some ⟨.transport, 0, ascii "Cannot read. Remote side has closed."⟩)] := by kernel_rfl
  replace h4 : some rs = _ := (congrArg callResults h3).symm.trans h4
  cases h4
  cases h1 with
  | cons a r ret rest =>
    simp only [sumService, Prod.mk.injEq] at r
    obtain ⟨⟨-, rfl⟩, -⟩ := r
    obtain ⟨r', h5, -⟩ := ret
    cases h5

/-- C197 for all other settings. -/
theorem C197_partial : C197_for fun sr sw => ¬ (sr = true ∧ sw = false) := by
  intro σ η κ l C V up down cbuf vbuf S L mem msd sv sr sw st tf mine yours hset K hS cs h h1 h2
  have hc : Compatible (Bin.new sr sw) (Bin.new sr sw) (Bin.new sr sw) := by
    refine ⟨rfl, rfl, ?_, ?_⟩ <;> (show sw = true ∨ sr = false; revert hset; cases sr <;> cases sw <;> simp)
  exact C58_partial L mem msd K hS hc cs h (fun c hc => (h1 c hc).1) (fun c hc => (h1 c hc).2) h2

example (x : I32) := C197_partial noFloats (fun _ => 0) 64 (sv := sumService) true true () (id : Unit → Unit) () () (by decide) pipe_link sumSchema_ok
  [(addMethod, [(1, .int32 x)])] 0 (by
      intro c hc
      rw [List.mem_singleton.1 hc]
      exact ⟨add_sound x, rfl⟩) (fun _ _ _ => rfl)

/-- A server made with two arguments understands the clients of every factory for the
binary protocol. -/
theorem C197_default {σ η κ l : Type} {C V : Transport σ} {up down cbuf vbuf : σ → Bytes} {S : Schema} (L : FloatLib)
    (mem : List Nat → Nat) (msd : Int) {sv : Service η} (sr sw : Bool) (st : l) (mine yours : κ) (K : Link C V up down cbuf vbuf)
    (hS : S.Ok) (cs : List (Method × Attrs)) (h : η) (h1 : ∀ c ∈ cs, Sound S sv c.1 c.2 ∧ c.1.oneway = false)
    (h2 : ∀ m h as, (sv.handle m h as).1.2 = none) :
    ∃ rs N, Answered S sv h cs rs ∧ ∀ fuel, N ≤ fuel → ∀ t, Settled up down cbuf vbuf t → ∃ c' x,
      let server := (TServer.new2 (process binary binary S L mem msd fuel sv) st).session yours
      (callAll (Client.call binary S L mem msd fuel) cs).run (served C V server.processor)
        (Client.ofFactory (newTBinaryProtocolFactory sr sw mine).2) (some ⟨server.input.2, server.output.2, h⟩, t) = (.ok (rs, c'), x) :=
  C58_partial L mem msd K hS (f := Bin.new sr sw) (i := Bin.default) (o := Bin.default) ⟨rfl, rfl, .inr rfl, .inl rfl⟩ cs h
    (fun c hc => (h1 c hc).1) (fun c hc => (h1 c hc).2) h2

example (x : I32) := C197_default noFloats (fun _ => 0) 64 (sv := sumService) true false () () () pipe_link sumSchema_ok
  [(addMethod, [(1, .int32 x)])] 0 (by
      intro c hc
      rw [List.mem_singleton.1 hc]
      exact ⟨add_sound x, rfl⟩) (fun _ _ _ => rfl)

end Thrift
