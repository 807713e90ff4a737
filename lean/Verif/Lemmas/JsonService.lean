import Verif.Spec.JsonService
import Verif.Lemmas.BinaryService
import Verif.Lemmas.HttpCall
import Verif.Lemmas.CompactService
import Verif.Lemmas.GenTagged
import Verif.Lemmas.JsonDoc
/-!
# Services over the tagged JSON protocol
-/

namespace Thrift
open JsonSpec

variable {S : Schema} {L : FloatLib} {mem : List Nat → Nat} {msd : Int} {fuel : Nat}

/-! ## Sending and receiving alone -/

section alone
variable {p : Proto π} {m : Method} {args : Attrs}

theorem send_alone {c : Client π} {f o o₁ o₂ o₃ : π} {a b e : Bytes} (hf : c.factory = some f) (ho : c.output = some o)
    (h1 : Emits (p.writeMessageBegin m.name CALL (c.seqId + 1)) f o₁ a)
    (h2 : Emits (genWrite p S fuel (S.structs m.args) args) o₁ o₂ b)
    (h3 : Emits p.writeMessageEnd o₂ o₃ e) :
    (Client.send p S fuel m args).run duplex c ([], []) =
      (.ok (none, { c with seqId := c.seqId + 1, output := some o₃ }), ([], a ++ (b ++ e))) := by
  have r0 (x : Bytes × Bytes) : (Client.renewOutput : P (Client π) Unit).run duplex c x = (.ok ((), { c with output := some f }), x) := by
    show (Client.renewOutput c : Prog _).run duplex x = _
    simp only [Client.renewOutput, ho, hf]; rfl
  unfold Client.send
  rw [P.run_bind, r0, andThen_ok, P.run_bind, P.run_modify, andThen_ok, P.run_bind, P.run_get, andThen_ok, P.run_bind]
  rw [Client.run_out _ _ f rfl, h1]
  simp only [putBack_ok, andThen_ok]
  rw [P.run_bind, Client.run_out _ _ o₁ rfl, h2]
  simp only [putBack_ok, andThen_ok]
  rw [P.run_bind, Client.run_out _ _ o₂ rfl, h3]
  simp only [putBack_ok, andThen_ok]
  rw [P.run_bind, P.run_tflush]
  simp [duplex, andThen, List.append_assoc]

theorem recv_alone {c : Client π} {i i₁ i₂ i₃ : π} {name : Bytes} {ty : I32} {r : Attrs} {e : GoErr} (hi : c.input = some i)
    (hty : ty ≠ EXCEPTION) (h1 : Runs p.readMessageBegin i i₁ [] ((name, ty, c.seqId), none))
    (h2 : Runs (genRead p S L mem msd fuel [] (S.structs m.result)) i₁ i₂ [] (r, none))
    (h3 : Runs p.readMessageEnd i₂ i₃ [] e) :
    (Client.recv p S L mem msd fuel m).run duplex c ([], []) = (.ok ((some r, none), { c with input := some i₃ }), ([], [])) := by
  have r0 (x : Bytes × Bytes) : (Client.ensureInput : P (Client π) Unit).run duplex c x = (.ok ((), c), x) := by
    show (Client.ensureInput c : Prog _).run duplex x = _
    simp only [Client.ensureInput, hi]; rfl
  have e1 := h1 [] []
  have e2 := h2 [] []
  have e3 := h3 [] []
  simp only [List.append_nil] at e1 e2 e3
  unfold Client.recv
  rw [P.run_bind, r0, andThen_ok, P.run_bind, Client.run_inp _ _ i hi, e1]
  simp only [putBack_ok, andThen_ok, Option.isSome_none, Bool.false_eq_true, if_false, if_neg hty, ne_eq, not_true,
    P.run_bind, P.run_get]
  rw [Client.run_inp _ _ i₁ rfl, e2]
  simp only [putBack_ok, andThen_ok]
  rw [Client.run_inp _ _ i₂ rfl, e3]
  rfl

theorem recv_alone_exception {c : Client π} {i i₁ i₂ i₃ : π} {name : Bytes} {q : I32} {y : AppExc} (hi : c.input = some i)
    (h1 : Runs p.readMessageBegin i i₁ [] ((name, EXCEPTION, q), none)) (h2 : Runs (appRead p msd fuel) i₁ i₂ [] (some y, none))
    (h3 : Runs p.readMessageEnd i₂ i₃ [] none) :
    (Client.recv p S L mem msd fuel m).run duplex c ([], []) = (.ok ((none, some y.err), { c with input := some i₃ }), ([], [])) := by
  have r0 (x : Bytes × Bytes) : (Client.ensureInput : P (Client π) Unit).run duplex c x = (.ok ((), c), x) := by
    show (Client.ensureInput c : Prog _).run duplex x = _
    simp only [Client.ensureInput, hi]; rfl
  have e1 := h1 [] []
  have e2 := h2 [] []
  have e3 := h3 [] []
  simp only [List.append_nil] at e1 e2 e3
  unfold Client.recv
  rw [P.run_bind, r0, andThen_ok, P.run_bind, Client.run_inp _ _ i hi, e1]
  simp only [putBack_ok, andThen_ok, Option.isSome_none, Bool.false_eq_true, if_false, if_true, P.run_bind]
  rw [Client.run_inp _ _ i₁ rfl, e2]
  simp only [putBack_ok, andThen_ok, Option.isSome_none, Bool.false_eq_true, if_false, P.run_bind]
  rw [Client.run_inp _ _ i₂ rfl, e3]
  rfl

end alone

/-! ## Documents -/

theorem Utf8.append : ∀ {a b : Bytes}, Utf8 a → Utf8 b → Utf8 (a ++ b)
  | _, _, .nil, h => h
  | _, _, .one a r h1 h2, h => .one a _ h1 (Utf8.append h2 h)
  | _, _, .two a b r h1 h2 h3 h4, h => .two a b _ h1 h2 h3 (Utf8.append h4 h)
  | _, _, .three a b c r h1 h2 h3 h4 h5 h6 h7, h => .three a b c _ h1 h2 h3 h4 h5 h6 (Utf8.append h7 h)
  | _, _, .four a b c d r h1 h2 h3 h4 h5 h6 h7 h8, h => .four a b c d _ h1 h2 h3 h4 h5 h6 h7 (Utf8.append h8 h)

theorem utf8_low : ∀ {s : Bytes}, (∀ b ∈ s, b.toNat < 128) → Utf8 s
  | [], _ => .nil
  | b :: r, h => .one b r (h b (by simp)) (utf8_low fun x hx => h x (by simp [hx]))

theorem AppExc.tree_readable (x : AppExc) (h : Utf8 x.message) : ReadableF x.tree := by
  unfold AppExc.tree
  split
  · exact ⟨(nomatch ·), h, (nomatch ·), trivial, trivial⟩
  · exact ⟨(nomatch ·), trivial, trivial⟩

theorem AppExc.tree_ne (x : AppExc) : x.tree ≠ .nil := by
  unfold AppExc.tree
  split <;> exact nofun

/-- A message that does not end in an empty struct. -/
theorem fits_ne {L : JsonLib} {name : Bytes} {ty : Byte} {q : I32} {fs : Fields} (h : fitsReader (message L name ty q (.struct fs)) = true) :
    (message L name ty q (.struct fs)).length ≤ 4096 ∧ fs ≠ .nil := by
  simp only [fitsReader, Bool.and_eq_true, decide_eq_true_eq, Bool.not_eq_true'] at h
  refine ⟨h.1, ?_⟩
  rintro rfl
  have : ascii "{}]" <:+ message L name ty q (.struct .nil) := by
    refine ⟨91 :: (decimal 1 ++ 44 :: (L.quote name ++ 44 :: (decimal ty.toNat ++ 44 :: (decimal q.toInt ++ [44])))), ?_⟩
    simp [message, text, members, ascii]
  rw [← List.isSuffixOf_iff_suffix, h.2] at this
  exact nomatch this

section json
variable {E : JsonEnv (List Bytes)}

theorem messages_arrive (hT : E.T = messages) {doc : Bytes} (h4 : 4 ≤ doc.length) (h : doc.length ≤ 4096) : JsonR.Arrives E [doc] doc [] := by
  refine ⟨?_, .inl h4⟩
  rw [hT]
  simp only [messages, JsonProtocol.bufSize]
  rw [List.take_of_length_le h]

theorem messages_live (hT : E.T = messages) : ¬ JsonR.Dry E [] := by
  intro h
  have := h 1 (by decide)
  rw [hT] at this
  exact nomatch this

theorem message_long (L : JsonLib) (name : Bytes) (ty : Byte) (q : I32) (v : Val) : 4 ≤ (message L name ty q v).length := by
  simp [message]; omega

/-- A new object, or one that has read all messages so far, reads the next one and is
as new. -/
theorem json_reads (hT : E.T = messages) (hL : Lawful E.L) (hF : 4104 < E.fuel) {name : Bytes} (hn : Utf8 name) (ty : Byte) (q : I32) (fs : Fields)
    (hw : fs.WF) (hr : ReadableF fs) (hfit : fitsReader (message E.L name ty q (.struct fs)) = true) :
    ∃ s₁ s₂, Reads (tjson E).readMessageBegin (Json.new [message E.L name ty q (.struct fs)]) s₁ [] (name, ty.setWidth 32, q) ∧
      Dec (JsonR.textual E) (.struct fs) s₁ s₂ [] ∧ Runs (tjson E).readMessageEnd s₂ (Json.new []) [] none := by
  obtain ⟨hlen, hne⟩ := fits_ne hfit
  obtain ⟨s₁, s₂, s₃, h1, h2, h3, h4⟩ := JsonR.dec_message hL hn ty q fs hw hr (by omega)
    (messages_arrive hT (message_long ..) hlen) (.inl hne)
  rw [h4.new (messages_live hT)] at h3
  exact ⟨s₁, s₂, h1, h2, h3⟩

theorem appRead_textual (E : JsonEnv τ) (msd : Int) (fuel : Nat) : appRead (JsonR.textual E) msd fuel = appRead (tjson E) msd fuel := by
  have hf : ∀ n x, appReadFields (JsonR.textual E) msd fuel n x = appReadFields (tjson E) msd fuel n x := by
    intro n
    induction n with
    | zero => intro x; rfl
    | succ n ih =>
      intro x
      simp only [appReadFields, appReadField, JsonR.skipDefault_textual, ih]
      rfl
  simp only [appRead, hf]
  rfl

/-! ## What is written -/

theorem json_emits {τ : Type} {E : JsonEnv τ} (t : τ) (name : Bytes) (ty : TMessageType) (q : I32) (v : Val) {w : P (Json τ) GoErr}
    (hw : Emits w ((Json.new t).at .list [.toplevel, .toplevel]) ((Json.new t).at .list [.toplevel, .toplevel]) (44 :: text E.L v)) :
    ∃ a b e s₁ s₂, Emits ((tjson E).writeMessageBegin name ty q) (Json.new t) s₁ a ∧ Emits w s₁ s₂ b ∧
      Emits (tjson E).writeMessageEnd s₂ (Json.new t) e ∧ a ++ (b ++ e) = message E.L name (ty.setWidth 8) q v := by
  refine ⟨_, _, _, _, _, JsonR.emits_message (E := E) name ty q (Json.new t) .toplevel [.toplevel], hw,
    JsonW.emits_end JsonProtocol.RBRACKET (Json.new t) .list .toplevel [.toplevel], ?_⟩
  simp [message, JsonW.sepOf, JsonProtocol.RBRACKET]

theorem json_emits_val {τ : Type} {E : JsonEnv τ} (hL : Lawful E.L) (t : τ) (v : Val) (hv : v.WF) :
    Emits (writeVal (tjson E) v) ((Json.new t).at .list [.toplevel, .toplevel]) ((Json.new t).at .list [.toplevel, .toplevel])
      (44 :: text E.L v) :=
  JsonW.emits_val E hL v (Json.new t) .list [.toplevel, .toplevel] hv rfl

section
variable (hL : Lawful E.L) (hS : S.Ok) (hB : ∀ k, ∀ m ∈ (S.structs k).members, JsonT.Taggable m.ty)
include hL hB

theorem json_request {m : Method} {a : Attrs} {fs : Fields} {c : Client (Json (List Bytes))} {o : Json (List Bytes)}
    (hf : c.factory = some (Json.new [])) (ho : c.output = some o) (hw : fs.WF)
    (h : flatMembers S (flatVal true S fuel) a (S.structs m.args).sorted = some fs) :
    (Client.send (tjson E) S fuel m a).run duplex c ([], []) =
      (.ok (none, { c with seqId := c.seqId + 1, output := some (Json.new []) }), ([], message E.L m.name 1 (c.seqId + 1) (.struct fs))) := by
  have h' : flatMembers S (flatVal false S fuel) a (S.structs m.args).sorted = some fs := by
    rw [flatMembers_free a _ fun x hx d => flatVal_free (fun k m hm => (hB k m hm).2.2) fuel x.ty d (hB _ x (mem_sorted.mp hx)).2.2]
    exact h
  obtain ⟨x, b, e, s₁, s₂, h1, h2, h3, h4⟩ := json_emits (E := E) [] m.name CALL (c.seqId + 1) (.struct fs)
    ((json_emits_val hL [] (.struct fs) hw).sim (sim_struct (blind_tjson E) fuel _ a fs h'))
  rw [send_alone hf ho h1 h2 h3, h4]
  rfl

theorem json_sendReply {m : Method} {r : Attrs} {fs : Fields} (q : I32) (hw : fs.WF)
    (h : flatMembers S (flatVal true S fuel) r (pickResult r (S.structs m.result).sorted.reverse).toList = some fs) :
    Sends duplex (fun s => s.1) (fun s => s.2) (fun _ => []) (sendReply (tjson E) S fuel m r q) (Json.new []) (Json.new [])
      (message E.L m.name 2 q (.struct fs)) none := by
  have h' : flatMembers S (flatVal false S fuel) r (pickResult r (S.structs m.result).sorted.reverse).toList = some fs := by
    rw [flatMembers_free r _ fun x hx d => flatVal_free (fun k m hm => (hB k m hm).2.2) fuel x.ty d (hB _ x (pickResult_mem hx)).2.2]
    exact h
  obtain ⟨x, b, e, s₁, s₂, h1, h2, h3, h4⟩ := json_emits (E := E) [] m.name REPLY q (.struct fs)
    ((json_emits_val hL [] (.struct fs) hw).sim (sim_result (blind_tjson E) fuel _ r fs h'))
  have := duplex_endpoint.sends_reply h1 h2 h3
  rw [List.append_nil, h4] at this
  exact this

omit hB in
theorem json_sendException (name : Bytes) (x : AppExc) (hx : x.message.length < 2 ^ 31) (q : I32) :
    Sends duplex (fun s => s.1) (fun s => s.2) (fun _ => []) (sendException (tjson E) name x q) (Json.new []) (Json.new [])
      (message E.L name 3 q (.struct x.tree)) () := by
  obtain ⟨a, b, e, s₁, s₂, h1, h2, h3, h4⟩ := json_emits (E := E) [] name EXCEPTION q (.struct x.tree)
    ((json_emits_val hL [] (.struct x.tree) (x.tree_wf hx)).sim (sim_app (blind_tjson E) x))
  have := duplex_endpoint.sends_exception h1 h2 h3
  rw [List.append_nil, h4] at this
  exact this

/-! ## What is read -/

include hS in
omit hL in
theorem json_object {k : Nat} {fs : Fields} {as' : Attrs} {s₁ s₂ : Json (List Bytes)} (hf : fs.size ≤ fuel)
    (hd : Dec (JsonR.textual E) (.struct fs) s₁ s₂ []) (hc : fs.Conforms S (S.structs k))
    (hb : buildFields S L mem fs [] (S.structs k) ((S.structs k).fresh S) = .ok as') :
    Runs (genRead (tjson E) S L mem msd fuel [] (S.structs k)) s₁ s₂ [] (as', none) := by
  have ho := Dec.genInto hS L mem msd fs fuel [] (S.structs k) ((S.structs k).fresh S) hf (hS k) hc hd
  rw [hb, JsonR.genRead_textual S L mem msd fun k m hm => (hB k m hm).2.2] at ho
  exact ho

omit hL in
include hS in
/-- The trees of the arguments and of the results, with what JSON needs of them. -/
theorem json_args {k ptr : Nat} {attrs : Attrs} (hf : Fine S (.struct k) ((S.structs k).object ptr attrs))
    (hl : Legible ((S.structs k).object ptr attrs)) :
    ∃ fs N as', (∀ fuel, N ≤ fuel → flatMembers S (flatVal true S fuel) attrs (S.structs k).sorted = some fs) ∧ fs.WF ∧
      fs.Conforms S (S.structs k) ∧ buildFields S L mem fs [] (S.structs k) ((S.structs k).fresh S) = .ok as' ∧
      SameAttrs (S.structs k) attrs as' ∧ ReadableF fs := by
  obtain ⟨fs, N, as', h1, h2, h3, h4, h5⟩ := args_tree (L := L) (mem := mem) hS hf
  refine ⟨fs, N, as', h1, h2, h3, h4, h5, ?_⟩
  cases hl with
  | struct _ _ _ _ _ _ hl => exact JsonT.readable_struct hB N k attrs hl fs (h1 N (Nat.le_refl _))

omit hL in
include hS in
theorem json_result {k ptr : Nat} {r : Attrs} (hf : Fine S (.struct k) ((S.structs k).object ptr r))
    (hl : Legible ((S.structs k).object ptr r)) (hd : ResultDef (S.structs k)) (ho : OneOutcome S (S.structs k) r) :
    ∃ fs N r', (∀ fuel, N ≤ fuel → flatMembers S (flatVal true S fuel) r (pickResult r (S.structs k).sorted.reverse).toList = some fs) ∧
      fs.WF ∧ fs.Conforms S (S.structs k) ∧ buildFields S L mem fs [] (S.structs k) ((S.structs k).fresh S) = .ok r' ∧
      SameAttrs (S.structs k) r r' ∧ ReadableF fs := by
  obtain ⟨fs, N, r', h1, h2, h3, h4, h5⟩ := result_tree (L := L) (mem := mem) hS hf hd ho
  refine ⟨fs, N, r', h1, h2, h3, h4, h5, ?_⟩
  cases hl with
  | struct _ _ _ _ _ _ hl =>
    refine JsonT.readable_members r hl (fun m hm d v hv hl => ?_) (h1 N (Nat.le_refl _))
    obtain ⟨g1, g2, g3⟩ := hB k m (pickResult_mem hm)
    refine ⟨?_, JsonT.readable_val hB N m.ty d v hv hl g2 g3⟩
    rw [flatVal_type hv]
    exact JsonT.wire_short g1

end

/-- The server's side of a call. -/
theorem json_serves {ip op : Proto (Json (List Bytes))} {sv : Service η} {i i' o o' : Json (List Bytes)} {h h' : η} {rep : Bytes} {a : Bool × GoErr}
    (hs : Serves duplex (fun s => s.1) (fun s => s.2) (fun _ => []) (process ip op S L mem msd fuel sv) ⟨i, o, h⟩ ⟨i', o', h'⟩ ([] ++ []) rep a) :
    (process ip op S L mem msd fuel sv).run duplex ⟨i, o, h⟩ ([], []) = (.ok (a, ⟨i', o', h'⟩), ([], rep)) := by
  obtain ⟨⟨x, y⟩, h1, h2, h3, -⟩ := hs ([], []) [] rfl
  simp only [List.append_nil, List.nil_append] at h2 h3
  rw [h1, h2, h3]

/-! ## Conversations -/

section steps
variable {sv : Service η} {p : Proto (Json (List Bytes))} {ready : Bool → Bytes → Bool} {m : Method} {a : Attrs} {cs : List (Method × Attrs)} {c c₁ c₂ : Client (Json (List Bytes))}
  {s s₁ : Server (Json (List Bytes)) (Json (List Bytes)) η} {x y : Bytes} {z : Bytes × Bytes} {req rep : Bytes}

theorem converse_request (h1 : (Client.send p S fuel m a).run duplex c ([], []) = (.ok (none, c₁), (x, req))) (h : ready true req = false) :
    converse p S L mem msd fuel sv ready ((m, a) :: cs) c s = some ([], .unfit req) := by
  simp only [converse, h1, h, if_true]

theorem converse_reply (h1 : (Client.send p S fuel m a).run duplex c ([], []) = (.ok (none, c₁), (x, req))) (h : ready true req = true)
    {ok : GoErr} {b : Bool}
    (h2 : (process p p S L mem msd fuel sv).run duplex { s with iprot := s.iprot.arrive req } ([], []) = (.ok ((b, ok), s₁), (y, rep)))
    (h' : ready b rep = false) :
    converse p S L mem msd fuel sv ready ((m, a) :: cs) c s = some ([], .unfit rep) := by
  simp only [converse, h1, h, h2, h', if_true, Bool.true_eq_false, if_false]

theorem converse_call (h1 : (Client.send p S fuel m a).run duplex c ([], []) = (.ok (none, c₁), (x, req))) (h : ready true req = true)
    {e : GoErr} {b : Bool}
    (h2 : (process p p S L mem msd fuel sv).run duplex { s with iprot := s.iprot.arrive req } ([], []) = (.ok ((b, e), s₁), (y, rep)))
    (h' : ready b rep = true) {res : Option Attrs × GoErr}
    (h3 : (Client.recv p S L mem msd fuel m).run duplex { c₁ with input := c₁.input.map (·.arrive rep) } ([], []) = (.ok (res, c₂), z)) :
    converse p S L mem msd fuel sv ready ((m, a) :: cs) c s =
      if b then (converse p S L mem msd fuel sv ready cs c₂ s₁).map fun x => (res :: x.1, x.2) else some ([res], .refused) := by
  simp only [converse, h1, h, h2, h', h3, Bool.true_eq_false, if_false]

end steps

/-- A client that has read all its messages. -/
def talker (n : I32) : Client (Json (List Bytes)) := ⟨some (Json.new []), some (Json.new []), some (Json.new []), n⟩

theorem conversed (hT : E.T = messages) (hL : Lawful E.L) (hF : 4104 < E.fuel) (hS : S.Ok)
    (hB : ∀ k, ∀ m ∈ (S.structs k).members, JsonT.Taggable m.ty) (sv : Service η) : ∀ (cs : List (Method × Attrs)) (h : η) (n : I32),
    (∀ c ∈ cs, JsonSound S sv c.1 c.2) → ∃ N, ∀ fuel, N ≤ fuel → ∃ rs e,
      converse (tjson E) S L mem msd fuel sv (fun _ => fitsReader) cs (talker n) ⟨Json.new [], Json.new [], h⟩ = some (rs, e) ∧
        Conversed E.L S sv fitsReader h cs rs e
  | [], h, n, _ => ⟨0, fun fuel _ => ⟨[], .finished, rfl, .finished h⟩⟩
  | (m, a) :: cs, h, n, hs => by
    have hm := hs (m, a) List.mem_cons_self
    obtain ⟨fs, N, as', h1, h2, h3, h4, h5, h6⟩ := json_args (L := L) (mem := mem) hS hB hm.args hm.text
    rcases hh : sv.handle m h as' with ⟨⟨r, _ | x⟩, h'⟩
    · obtain ⟨f1, f2, f3⟩ := hm.fine h as' r h' hh
      obtain ⟨gs, M, r', g1, g2, g3, g4, g5, g6⟩ := json_result (L := L) (mem := mem) hS hB f1 f3 hm.result f2
      obtain ⟨K, hK⟩ := conversed hT hL hF hS hB sv cs h' (n + 1) fun c hc => hs c (List.mem_cons_of_mem _ hc)
      refine ⟨max (max N M) (max (max fs.size gs.size) K), fun fuel hfu => ?_⟩
      have e1 := json_request (E := E) (S := S) (fuel := fuel) (m := m) (a := a) (c := talker n) hL hB rfl rfl h2 (h1 fuel (by omega))
      cases hr : fitsReader (message E.L m.name 1 (n + 1) (.struct fs))
      · exact ⟨[], .unfit _, converse_request e1 hr, .unfit rfl hr⟩
      obtain ⟨s₁, s₂, d1, d2, d3⟩ := json_reads hT hL hF hm.name 1 (n + 1) fs h2 h6 hr
      have e2 := json_serves (duplex_endpoint.serves_known (S := S) (L := L) (mem := mem) (msd := msd) (fuel := fuel) (op := tjson E) d1 hm.known
        (duplex_endpoint.serves_reply (h := h) (json_object hS hB (by omega) d2 h3 h4) d3 hh
          (by rw [hm.twoway]; exact json_sendReply hL hB (n + 1) g2 (g1 fuel (by omega)))))
      cases hq : fitsReader (message E.L m.name 2 (n + 1) (.struct gs))
      · exact ⟨[], .unfit _, converse_reply e1 hr (s := ⟨Json.new [], Json.new [], h⟩) e2 hq, .unfit rfl hq⟩
      obtain ⟨t₁, t₂, k1, k2, k3⟩ := json_reads hT hL hF hm.name 2 (n + 1) gs g2 g6 hq
      have e3 := recv_alone (m := m) (c := ⟨some (Json.new []), some (Json.new [message E.L m.name 2 (n + 1) (.struct gs)]), some (Json.new []), n + 1⟩)
        rfl (by decide) k1 (json_object (L := L) (mem := mem) (msd := msd) (fuel := fuel) hS hB (by omega) k2 g3 g4) k3
      obtain ⟨rs, e, i1, i2⟩ := hK fuel (by omega)
      refine ⟨(some r', none) :: rs, e, ?_, .answered h5 hh ?_ i2⟩
      · rw [converse_call e1 hr (s := ⟨Json.new [], Json.new [], h⟩) e2 hq e3, if_pos rfl]
        show Option.map _ (converse (tjson E) S L mem msd fuel sv (fun _ => fitsReader) cs (talker (n + 1)) _) = _
        rw [i1]
        rfl
      · rw [Returned, if_neg (by rw [hm.twoway]; decide)]
        exact ⟨r', rfl, g5⟩
    · obtain ⟨u1, u2⟩ := hm.message h as' r x h' hh
      have hl := internal_length u2
      have hu : Utf8 (internalError m.name x).message :=
        Utf8.append (Utf8.append (Utf8.append (utf8_low (by decide)) hm.name) (utf8_low (by decide))) u1
      refine ⟨max N (max fs.size 3), fun fuel hfu => ?_⟩
      have e1 := json_request (E := E) (S := S) (fuel := fuel) (m := m) (a := a) (c := talker n) hL hB rfl rfl h2 (h1 fuel (by omega))
      cases hr : fitsReader (message E.L m.name 1 (n + 1) (.struct fs))
      · exact ⟨[], .unfit _, converse_request e1 hr, .unfit rfl hr⟩
      obtain ⟨s₁, s₂, d1, d2, d3⟩ := json_reads hT hL hF hm.name 1 (n + 1) fs h2 h6 hr
      have e2 := json_serves (duplex_endpoint.serves_known (S := S) (L := L) (mem := mem) (msd := msd) (fuel := fuel) (op := tjson E) d1 hm.known
        (duplex_endpoint.serves_failure (h := h) (json_object hS hB (by omega) d2 h3 h4) d3 hh
          (json_sendException hL m.name (internalError m.name x) hl (n + 1))))
      cases hq : fitsReader (message E.L m.name 3 (n + 1) (.struct (internalError m.name x).tree))
      · exact ⟨[], .unfit _, converse_reply e1 hr (s := ⟨Json.new [], Json.new [], h⟩) e2 hq, .unfit rfl hq⟩
      obtain ⟨t₁, t₂, k1, k2, k3⟩ := json_reads hT hL hF hm.name 3 (n + 1) _ (AppExc.tree_wf _ hl) (AppExc.tree_readable _ hu) hq
      have hx := Dec.app msd (internalError m.name x).tree fuel (Nat.le_trans (AppExc.tree_size _) (by omega)) k2
      rw [AppExc.collect_tree _ _ rfl, appRead_textual] at hx
      have e3 := recv_alone_exception (S := S) (L := L) (mem := mem) (m := m)
        (c := ⟨some (Json.new []), some (Json.new [message E.L m.name 3 (n + 1) (.struct (internalError m.name x).tree)]), some (Json.new []), n + 1⟩)
        rfl k1 hx k3
      refine ⟨[(none, some (internalError m.name x).err)], .refused, ?_, .refused h5 hh ?_⟩
      · rw [converse_call e1 hr (s := ⟨Json.new [], Json.new [], h⟩) e2 hq e3]
        rfl
      · rw [Returned, if_neg (by rw [hm.twoway]; decide)]
        rfl

end json
end Thrift
