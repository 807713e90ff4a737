import Verif.Lemmas.Result
/-!
# Services over the binary protocol
-/

namespace Thrift

variable {S : Schema} {L : FloatLib} {mem : List Nat → Nat} {msd : Int}

/-! ## Connections in memory -/

theorem pipe_client : Endpoint pipeClient (fun s => s.2) (fun s => s.1) (fun _ => []) where
  read_some n s hn hv := by
    have hl : 0 < s.2.length := List.length_pos_iff.mpr hv
    refine ⟨min n s.2.length, (s.1, s.2.drop (min n s.2.length)), by omega, Nat.min_le_left .., Nat.min_le_right .., ?_, rfl, rfl, rfl⟩
    show (if s.2 = [] then _ else _) = _
    have ht : s.2.take n = s.2.take (min n s.2.length) := by
      simp [List.take_eq_take_iff, Nat.min_assoc]
    have hd : s.2.drop n = s.2.drop (min n s.2.length) := by
      rcases Nat.le_total n s.2.length with h | h
      · rw [Nat.min_eq_left h]
      · rw [Nat.min_eq_right h, List.drop_of_length_le h, List.drop_length]
    rw [if_neg hv, ht, hd]
  read_end n s hn hv := by
    refine ⟨endOfStream, s, ?_, hv, rfl, rfl⟩
    show (if s.2 = [] then _ else _) = _
    rw [if_pos hv, if_neg (by omega)]
  write bs s := ⟨_, rfl, rfl, by simp⟩
  flush s := ⟨s, rfl, rfl, by simp, rfl⟩

theorem pipe_server : Endpoint pipeServer (fun s => s.1) (fun s => s.2) (fun _ => []) where
  read_some n s hn hv := by
    have hl : 0 < s.1.length := List.length_pos_iff.mpr hv
    refine ⟨min n s.1.length, (s.1.drop (min n s.1.length), s.2), by omega, Nat.min_le_left .., Nat.min_le_right .., ?_, rfl, rfl, rfl⟩
    show (if s.1 = [] then _ else _) = _
    have ht : s.1.take n = s.1.take (min n s.1.length) := by
      simp [List.take_eq_take_iff, Nat.min_assoc]
    have hd : s.1.drop n = s.1.drop (min n s.1.length) := by
      rcases Nat.le_total n s.1.length with h | h
      · rw [Nat.min_eq_left h]
      · rw [Nat.min_eq_right h, List.drop_of_length_le h, List.drop_length]
    rw [if_neg hv, ht, hd]
  read_end n s hn hv := by
    refine ⟨endOfStream, s, ?_, hv, rfl, rfl⟩
    show (if s.1 = [] then _ else _) = _
    rw [if_pos hv, if_neg (by omega)]
  write bs s := ⟨_, rfl, rfl, by simp⟩
  flush s := ⟨s, rfl, rfl, by simp, rfl⟩

theorem pipe_link : Link pipeClient pipeServer (fun s => s.1) (fun s => s.2) (fun _ => []) (fun _ => []) where
  client := pipe_client
  server := pipe_server
  client_frame := ⟨fun _ _ => rfl, fun _ _ => rfl, fun _ => rfl⟩
  server_frame := ⟨fun _ _ => rfl, fun _ _ => rfl, fun _ => rfl⟩

/-! ## Headers -/

theorem Bin.emits_header (name : Bytes) (t q : I32) (hn : name.length < 2 ^ 31) (ht : t.toNat < 256) (o : Bin) :
    Emits (binary.writeMessageBegin name t q) o o (BinarySpec.message o.strictWrite name t q) := by
  unfold BinarySpec.message
  cases h : o.strictWrite
  · exact Bin.emits_messageOld name t q hn o h
  · exact Bin.emits_messageStrict name t q hn ht o h

theorem Bin.reads_header (strict : Bool) (name : Bytes) (t q : I32) (hn : name.length < 2 ^ 31) (ht : t.toNat < 256) (i : Bin)
    (hi : i.checkReadLength = false) (hs : strict = true ∨ i.strictRead = false) :
    Reads binary.readMessageBegin i i (BinarySpec.message strict name t q) (name, t, q) := by
  unfold BinarySpec.message
  cases strict
  · exact Bin.reads_messageOld name t q hn ht i hi (by simpa using hs)
  · exact Bin.reads_messageStrict name t q hn ht i hi

theorem Bin.emits_end (o : Bin) : Emits binary.writeMessageEnd o o [] := Emits.pure o
theorem Bin.runs_end (i : Bin) : Runs binary.readMessageEnd i i [] none := Runs.pure i none

/-! ## Bodies -/

theorem Bin.emits_app (x : AppExc) (hx : x.message.length < 2 ^ 31) (o : Bin) :
    Emits (appWrite binary x) o o (BinarySpec.encode (.struct x.tree)) :=
  (Bin.emits_val (.struct x.tree) o (x.tree_wf hx)).sim (sim_app blind_binary x)

theorem Bin.reads_app (x : AppExc) (hx : x.message.length < 2 ^ 31) (i : Bin) (hi : i.checkReadLength = false) (fuel : Nat) (hf : 3 ≤ fuel) :
    Reads (appRead binary msd fuel) i i (BinarySpec.encode (.struct x.tree)) (some x) := by
  have := Dec.app msd x.tree fuel (Nat.le_trans x.tree_size hf) (Bin.dec_val (.struct x.tree) i hi (x.tree_wf hx))
  rwa [x.collect_tree _ rfl] at this

theorem Bin.emits_result (o : Bin) {fuel : Nat} {sd : StructDef} {r : Attrs} {fs : Fields}
    (h : flatMembers S (flatVal true S fuel) r (pickResult r sd.sorted.reverse).toList = some fs) (hw : fs.WF) :
    Emits (genWriteResult binary S fuel sd r) o o (BinarySpec.encode (.struct fs)) :=
  (Bin.emits_val (.struct fs) o hw).sim (sim_result blind_binary fuel sd r fs h)

theorem Bin.reads_object (hS : S.Ok) (i : Bin) (hi : i.checkReadLength = false) {fuel : Nat} {sd : StructDef}
    {path : List Nat} (hsd : sd.Ok) {as' : Attrs} {fs : Fields} (hf : fs.size ≤ fuel) (hw : fs.WF) (hc : fs.Conforms S sd)
    (hb : buildFields S L mem fs path sd (sd.fresh S) = .ok as') :
    Reads (genRead binary S L mem msd fuel path sd) i i (BinarySpec.encode (.struct fs)) as' := by
  have ho := Dec.genInto hS L mem msd fs fuel path sd (sd.fresh S) hf hsd hc (Bin.dec_val (.struct fs) i hi hw)
  rw [hb] at ho
  exact ho

/-! ## Answers -/

section
variable {T : Transport σ} {inn out buf : σ → Bytes} {η : Type} {sv : Service η} {m : Method} {q : I32}

theorem Endpoint.binary_exception (E : Endpoint T inn out buf) (name : Bytes) (hn : name.length < 2 ^ 31) (x : AppExc)
    (hx : x.message.length < 2 ^ 31) (q : I32) (o : Bin) :
    Sends T inn out buf (sendException binary name x q) o o
      (BinarySpec.message o.strictWrite name EXCEPTION q ++ BinarySpec.encode (.struct x.tree)) () := by
  have := E.sends_exception (Bin.emits_header name EXCEPTION q hn (by decide) o) (Bin.emits_app x hx o) (Bin.emits_end o)
  rwa [List.append_nil, List.append_nil] at this

theorem Endpoint.binary_reply (E : Endpoint T inn out buf) (hn : m.name.length < 2 ^ 31) (q : I32) (o : Bin) {fuel : Nat} {r : Attrs}
    {fs : Fields}
    (h : flatMembers S (flatVal true S fuel) r (pickResult r (S.structs m.result).sorted.reverse).toList = some fs) (hw : fs.WF) :
    Sends T inn out buf (sendReply binary S fuel m r q) o o
      (BinarySpec.message o.strictWrite m.name REPLY q ++ BinarySpec.encode (.struct fs)) none := by
  have := E.sends_reply (Bin.emits_header m.name REPLY q hn (by decide) o) (Bin.emits_result o h hw) (Bin.emits_end o)
  rwa [List.append_nil, List.append_nil] at this

end

section
variable {C V : Transport σ} {up down cbuf vbuf : σ → Bytes} {η : Type} {sv : Service η} {m : Method} {f i o : Bin}

/-- The internal error that the caller gets. -/
def internalError (name : Bytes) (e : Err) : AppExc :=
  newTApplicationException INTERNAL_ERROR (ascii "Internal error processing " ++ name ++ ascii ": " ++ e.msg)

theorem internal_length {name : Bytes} {e : Err} (h : name.length + e.msg.length + 28 < 2 ^ 31) :
    (internalError name e).message.length < 2 ^ 31 := by
  have h1 : (ascii "Internal error processing ").length = 26 := by decide
  have h2 : (ascii ": ").length = 2 := by decide
  simp only [internalError, newTApplicationException, List.length_append, h1, h2]
  omega

theorem binary_call (K : Link C V up down cbuf vbuf) (hS : S.Ok) (hc : Compatible f i o) (hm : sv.find m.name = some m)
    (hn : m.name.length < 2 ^ 31) (hone : m.oneway = false) {a : Attrs}
    (ha : Fine S (.struct m.args) ((S.structs m.args).object 0 a)) :
    ∃ as', SameAttrs (S.structs m.args) a as' ∧
      (∀ h r h', sv.handle m h as' = ((r, none), h') → Fine S (.struct m.result) ((S.structs m.result).object 0 r) →
        ResultDef (S.structs m.result) → OneOutcome S (S.structs m.result) r →
        ∃ r', SameAttrs (S.structs m.result) r r' ∧ ∃ N, ∀ fuel, N ≤ fuel → ∀ (n : I32) t, Settled up down cbuf vbuf t → ∃ t',
          (Client.call binary S L mem msd fuel m a).run (served C V (process binary binary S L mem msd fuel sv))
            ⟨some f, some f, some f, n⟩ (some ⟨i, o, h⟩, t) =
            (.ok ((some r', none), ⟨some f, some f, some f, n + 1⟩), (some ⟨i, o, h'⟩, t')) ∧ Settled up down cbuf vbuf t') ∧
      (∀ h r e h', sv.handle m h as' = ((r, some e), h') → (internalError m.name e).message.length < 2 ^ 31 →
        ∃ N, ∀ fuel, N ≤ fuel → ∀ (n : I32) t, Settled up down cbuf vbuf t → ∃ t',
          (Client.call binary S L mem msd fuel m a).run (served C V (process binary binary S L mem msd fuel sv))
            ⟨some f, some f, some f, n⟩ (some ⟨i, o, h⟩, t) =
            (.ok ((none, some (internalError m.name e).err), ⟨some f, some f, some f, n + 1⟩), (none, t')) ∧
            Settled up down cbuf vbuf t') := by
  obtain ⟨fs, N, as', h1, h2, h3, h4, h5⟩ := args_tree (L := L) (mem := mem) hS ha
  refine ⟨as', h5, ?_, ?_⟩
  · intro h r h' hh hr hd ho
    obtain ⟨gs, M, r', g1, g2, g3, g4, g5⟩ := result_tree (L := L) (mem := mem) hS hr hd ho
    refine ⟨r', g5, max (max N M) (max fs.size gs.size), fun fuel hfu n t ht => ?_⟩
    have hs := K.server.serves_known (S := S) (L := L) (mem := mem) (msd := msd) (fuel := fuel) (op := binary)
      (Bin.reads_header f.strictWrite m.name CALL (n + 1) hn (by decide) i hc.server hc.up) hm
      (K.server.serves_reply (Bin.reads_object (msd := msd) hS i hc.server (hS _) (show fs.size ≤ fuel by omega) h2 h3 h4) (Bin.runs_end i) hh
        (by rw [hone]; exact K.server.binary_reply hn (n + 1) o (g1 fuel (by omega)) g2))
    obtain ⟨t', e, ht'⟩ := call_run K (c := ⟨some f, some f, some f, n⟩) rfl rfl binary_holds hone (Bin.emits_header m.name CALL (n + 1) hn (by decide) f)
      (binary_writes f (h1 fuel (by omega)) h2) (Bin.emits_end f) (by rw [List.append_nil]; exact hs)
      (fun w t => recv_reply K binary_reads (c := ⟨some f, some f, some f, n + 1⟩) rfl (by decide)
        (Bin.reads_header o.strictWrite m.name REPLY (n + 1) hn (by decide) f hc.client hc.down)
        (Bin.reads_object (L := L) (mem := mem) (msd := msd) hS f hc.client (hS _) (show gs.size ≤ fuel by omega) g2 g3 g4) (Bin.runs_end f) w t) t ht
    exact ⟨t', e, ht'⟩
  · intro h r e h' hh hl
    refine ⟨max N (max fs.size 3), fun fuel hfu n t ht => ?_⟩
    have hs := K.server.serves_known (S := S) (L := L) (mem := mem) (msd := msd) (fuel := fuel) (op := binary)
      (Bin.reads_header f.strictWrite m.name CALL (n + 1) hn (by decide) i hc.server hc.up) hm
      (K.server.serves_failure (Bin.reads_object (msd := msd) hS i hc.server (hS _) (show fs.size ≤ fuel by omega) h2 h3 h4) (Bin.runs_end i) hh
        (K.server.binary_exception m.name hn (internalError m.name e) hl (n + 1) o))
    obtain ⟨t', e, ht'⟩ := call_run K (c := ⟨some f, some f, some f, n⟩) rfl rfl binary_holds hone (Bin.emits_header m.name CALL (n + 1) hn (by decide) f)
      (binary_writes f (h1 fuel (by omega)) h2) (Bin.emits_end f) (by rw [List.append_nil]; exact hs)
      (fun w t => recv_exception (L := L) (mem := mem) (S := S) (m := m) K binary_reads (c := ⟨some f, some f, some f, n + 1⟩) rfl
        (Bin.reads_header o.strictWrite m.name EXCEPTION (n + 1) hn (by decide) f hc.client hc.down)
        (Bin.reads_app (msd := msd) _ hl f hc.client fuel (by omega)) (Bin.runs_end f) w t) t ht
    exact ⟨t', e, ht'⟩

theorem Bin.header_missing (i : Bin) (hi : i.checkReadLength = false) : ∃ x e, ∀ out,
    binary.readMessageBegin.run duplex i ([], out) = (.ok ((x, some e), i), ([], out)) := by
  obtain ⟨_, _, _, _⟩ := i
  simp only at hi
  subst hi
  exact ⟨_, _, fun _ => rfl⟩

theorem binary_gone (K : Link C V up down cbuf vbuf) (hS : S.Ok) (hc : f.checkReadLength = false) (sv : Service η) (hn : m.name.length < 2 ^ 31)
    (hone : m.oneway = false) {a : Attrs} (ha : Fine S (.struct m.args) ((S.structs m.args).object 0 a)) :
    ∃ e N, ∀ fuel, N ≤ fuel → ∀ (n : I32) t, down t = [] → ∃ t',
      (Client.call binary S L mem msd fuel m a).run (served C V (process (ω := Bin) binary binary S L mem msd fuel sv))
        ⟨some f, some f, some f, n⟩ (none, t) =
        (.ok ((none, some e), ⟨some f, some f, some f, n + 1⟩), (none, t')) ∧ down t' = [] := by
  obtain ⟨fs, N, as', h1, h2, -⟩ := args_tree (L := L) (mem := mem) hS ha
  obtain ⟨x, e, hr⟩ := Bin.header_missing f hc
  refine ⟨e, N, fun fuel hfu n t ht => ?_⟩
  exact call_gone K binary_reads (c := ⟨some f, some f, some f, n⟩) rfl rfl rfl binary_holds hone
    (Bin.emits_header m.name CALL (n + 1) hn (by decide) f) (binary_writes f (h1 fuel (by omega)) h2) (Bin.emits_end f) hr t ht

theorem binary_gone_all (K : Link C V up down cbuf vbuf) (hS : S.Ok) (hf : f.checkReadLength = false) : ∀ cs : List (Method × Attrs), (∀ c ∈ cs, Sound S sv c.1 c.2 ∧ c.1.oneway = false) →
    ∃ rs N, rs.length = cs.length ∧ (∀ x ∈ rs, x.1 = none ∧ x.2.isSome = true) ∧
      ∀ fuel, N ≤ fuel → ∀ (n : I32) t, down t = [] → ∃ c' x,
      (callAll (Client.call binary S L mem msd fuel) cs).run (served C V (process (ω := Bin) binary binary S L mem msd fuel sv))
        ⟨some f, some f, some f, n⟩ (none, t) = (.ok (rs, c'), x)
  | [], _ => ⟨[], 0, rfl, (by intro x hx; cases hx), fun fuel _ n t _ => ⟨_, _, rfl⟩⟩
  | (m, a) :: cs, h => by
    obtain ⟨rs, N, h1, h2, h3⟩ := binary_gone_all K hS hf cs fun c hc => h c (List.mem_cons_of_mem _ hc)
    obtain ⟨hm, hone⟩ := h (m, a) List.mem_cons_self
    obtain ⟨e, M, h4⟩ := binary_gone (L := L) (mem := mem) (msd := msd) (f := f) K hS hf sv hm.name hone hm.args
    refine ⟨(none, some e) :: rs, max N M, by simp [h1], ?_, fun fuel hfu n t ht => ?_⟩
    · intro x hx
      rcases List.mem_cons.mp hx with rfl | hx
      · exact ⟨rfl, rfl⟩
      · exact h2 x hx
    · obtain ⟨t', e1, ht'⟩ := h4 fuel (by omega) n t ht
      obtain ⟨c', x, e2⟩ := h3 fuel (by omega) (n + 1) t' ht'
      refine ⟨c', x, ?_⟩
      rw [callAll, P.run_bind, e1, andThen_ok, P.run_bind, e2, andThen_ok, P.run_pure]

theorem binary_calls (K : Link C V up down cbuf vbuf) (hS : S.Ok) (hc : Compatible f i o) : ∀ (cs : List (Method × Attrs)) (h : η),
    (∀ c ∈ cs, Sound S sv c.1 c.2 ∧ c.1.oneway = false) → ∃ rs N, AnsweredUntilError S sv h cs rs ∧
      ∀ fuel, N ≤ fuel → ∀ (n : I32) t, Settled up down cbuf vbuf t → ∃ c' x,
      (callAll (Client.call binary S L mem msd fuel) cs).run (served C V (process binary binary S L mem msd fuel sv))
        ⟨some f, some f, some f, n⟩ (some ⟨i, o, h⟩, t) = (.ok (rs, c'), x)
  | [], h, _ => ⟨[], 0, .nil h, fun fuel _ n t _ => ⟨_, _, rfl⟩⟩
  | (m, a) :: cs, h, hs => by
    obtain ⟨hm, hone⟩ := hs (m, a) List.mem_cons_self
    obtain ⟨as', ha, hgood, hbad⟩ := binary_call (L := L) (mem := mem) (msd := msd) K hS hc hm.known hm.name hone hm.args
    rcases hh : sv.handle m h as' with ⟨⟨r, _ | e⟩, h'⟩
    · obtain ⟨rs, N, h1, h2⟩ := binary_calls K hS hc cs h' fun c hc => hs c (List.mem_cons_of_mem _ hc)
      obtain ⟨f1, f2⟩ := hm.fine h as' r h' hh
      obtain ⟨r', hr', M, h3⟩ := hgood h r h' hh f1 hm.result f2
      refine ⟨(some r', none) :: rs, max N M, .cons ha hh ?_ h1, fun fuel hfu n t ht => ?_⟩
      · rw [Returned, if_neg (by rw [show m.oneway = false from hone]; decide)]; exact ⟨r', rfl, hr'⟩
      · obtain ⟨t', e1, ht'⟩ := h3 fuel (by omega) n t ht
        obtain ⟨c', x, e2⟩ := h2 fuel (by omega) (n + 1) t' ht'
        refine ⟨c', x, ?_⟩
        rw [callAll, P.run_bind, e1, andThen_ok, P.run_bind, e2, andThen_ok, P.run_pure]
    · obtain ⟨rs, N, l1, l2, h2⟩ := binary_gone_all (L := L) (mem := mem) (msd := msd) (f := f) (sv := sv) K hS hc.client cs
        fun c hc => hs c (List.mem_cons_of_mem _ hc)
      obtain ⟨M, h3⟩ := hbad h r e h' hh (internal_length (hm.message h as' r e h' hh))
      refine ⟨(none, some (internalError m.name e).err) :: rs, max N M, .stop ha hh ?_ l1 l2, fun fuel hfu n t ht => ?_⟩
      · rw [Returned, if_neg (by rw [show m.oneway = false from hone]; decide)]; rfl
      · obtain ⟨t', e1, ht'⟩ := h3 fuel (by omega) n t ht
        obtain ⟨c', x, e2⟩ := h2 fuel (by omega) (n + 1) t' ht'.down
        refine ⟨c', x, ?_⟩
        rw [callAll, P.run_bind, e1, andThen_ok, P.run_bind, e2, andThen_ok, P.run_pure]

end
end Thrift
