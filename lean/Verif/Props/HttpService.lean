import Verif.Lemmas.HttpCall
import Verif.Props.Service
/-!
# C113: calls over HTTP
-/

namespace Thrift

variable {S : Schema} {L : FloatLib} {mem : List Nat → Nat} {msd : Int} {η : Type} {sv : Service η}

/-- One call: the result, and the state of the handler after it. -/
theorem http_call (hS : S.Ok) {f i o : Bin} (hc : Compatible f i o) {m : Method} {a : Attrs} (hm : Sound S sv m a)
    (ho : m.oneway = true → (S.structs m.result).members = []) (h : η) :
    ∃ as' r err h' res, SameAttrs (S.structs m.args) a as' ∧ sv.handle m h as' = ((r, err), h') ∧
      Returned (S.structs m.result) m r err res ∧ ∃ N, ∀ fuel, N ≤ fuel → ∀ {ρ ν : Type} (W : Web ρ ν) (rest : ρ → ν → Bytes) (handler : ν → η),
      Site W rest handler i o (process binary binary S L mem msd fuel sv) → ∀ (q : I32) x n, handler n = h → ∃ x' n', handler n' = h' ∧
        (Client.call binary S L mem msd fuel m a).run (http W) ⟨some f, some f, some f, q⟩ (asClient (x, [], n)) =
          (.ok (res, ⟨some f, some f, some f, q + 1⟩), asClient (x', [], n')) := by
  obtain ⟨fs, N, as', h1, h2, h3, h4, h5⟩ := args_tree (L := L) (mem := mem) hS hm.args
  rcases hh : sv.handle m h as' with ⟨⟨r, _ | e⟩, h'⟩
  · obtain ⟨f1, f2⟩ := hm.fine h as' r h' hh
    obtain ⟨gs, M, r', g1, g2, g3, g4, g5⟩ := result_tree (L := L) (mem := mem) hS f1 hm.result f2
    cases hone : m.oneway
    · refine ⟨as', r, none, h', (some r', none), h5, hh, ?_, max (max N M) (max fs.size gs.size), ?_⟩
      · rw [Returned, if_neg (by rw [hone]; decide)]; exact ⟨r', rfl, g5⟩
      · intro fuel hfu ρ ν W rest handler H q x n hn
        have hs := duplex_endpoint.serves_known (S := S) (L := L) (mem := mem) (msd := msd) (fuel := fuel) (op := binary)
          (Bin.reads_header f.strictWrite m.name CALL (q + 1) hm.name (by decide) i hc.server hc.up) hm.known
          (duplex_endpoint.serves_reply (Bin.reads_object (msd := msd) hS i hc.server (hS _) (show fs.size ≤ fuel by omega) h2 h3 h4)
            (Bin.runs_end i) hh (by rw [hone]; exact duplex_endpoint.binary_reply hm.name (q + 1) o (g1 fuel (by omega)) g2))
        obtain ⟨x1, n1, e1, r1, k1⟩ := H.send (c := ⟨some f, some f, some f, q⟩) rfl rfl binary_holds
          (Bin.emits_header m.name CALL (q + 1) hm.name (by decide) f) (binary_writes f (h1 fuel (by omega)) h2) (Bin.emits_end f)
          (by rw [List.append_nil]; exact hs) x n hn
        obtain ⟨x2, n2, e2, k2⟩ := H.recv_reply (m := m) binary_reads (c := ⟨some f, some f, some f, q + 1⟩) rfl (by decide)
          (Bin.reads_header o.strictWrite m.name REPLY (q + 1) hm.name (by decide) f hc.client hc.down)
          (Bin.reads_object (L := L) (mem := mem) (msd := msd) hS f hc.client (hS _) (show gs.size ≤ fuel by omega) g2 g3 g4) (Bin.runs_end f)
          x1 n1 r1
        refine ⟨x2, n2, k2.trans k1, ?_⟩
        unfold Client.call
        rw [P.run_bind, e1, andThen_ok]
        simp only [Option.isSome_none, Bool.false_eq_true, if_false, hone]
        exact e2
    · refine ⟨as', r, none, h', (none, none), h5, hh, by rw [Returned, if_pos hone], max N fs.size, ?_⟩
      intro fuel hfu ρ ν W rest handler H q x n hn
      have hs := duplex_endpoint.serves_known (S := S) (L := L) (mem := mem) (msd := msd) (fuel := fuel) (op := binary)
        (Bin.reads_header f.strictWrite m.name CALL (q + 1) hm.name (by decide) i hc.server hc.up) hm.known
        (duplex_endpoint.serves_reply (Bin.reads_object (msd := msd) hS i hc.server (hS _) (show fs.size ≤ fuel by omega) h2 h3 h4)
          (Bin.runs_end i) hh (by
            rw [hone]
            refine duplex_endpoint.binary_reply (fs := .nil) hm.name (q + 1) o ?_ trivial
            simp only [StructDef.sorted, StructDef.fresh, ho hone]
            rfl))
      obtain ⟨x1, n1, e1, r1, k1⟩ := H.send (c := ⟨some f, some f, some f, q⟩) rfl rfl binary_holds
        (Bin.emits_header m.name CALL (q + 1) hm.name (by decide) f) (binary_writes f (h1 fuel (by omega)) h2) (Bin.emits_end f)
        (by rw [List.append_nil]; exact hs) x n hn
      refine ⟨some x1, n1, k1, ?_⟩
      unfold Client.call
      rw [P.run_bind, e1, andThen_ok]
      simp only [Option.isSome_none, Bool.false_eq_true, if_false, hone, if_true]
      rfl
  · have hl := internal_length (hm.message h as' r e h' hh)
    have hs (fuel : Nat) (hfu : fs.size ≤ fuel) (q : I32) := duplex_endpoint.serves_known (S := S) (L := L) (mem := mem) (msd := msd) (fuel := fuel) (op := binary)
      (Bin.reads_header f.strictWrite m.name CALL (q + 1) hm.name (by decide) i hc.server hc.up) hm.known
      (duplex_endpoint.serves_failure (Bin.reads_object (msd := msd) hS i hc.server (hS _) hfu h2 h3 h4) (Bin.runs_end i) hh
        (duplex_endpoint.binary_exception m.name hm.name (internalError m.name e) hl (q + 1) o))
    cases hone : m.oneway
    · refine ⟨as', r, some e, h', (none, some (internalError m.name e).err), h5, hh, ?_, max N (max fs.size 3), ?_⟩
      · rw [Returned, if_neg (by rw [hone]; decide)]; rfl
      · intro fuel hfu ρ ν W rest handler H q x n hn
        obtain ⟨x1, n1, e1, r1, k1⟩ := H.send (c := ⟨some f, some f, some f, q⟩) rfl rfl binary_holds
          (Bin.emits_header m.name CALL (q + 1) hm.name (by decide) f) (binary_writes f (h1 fuel (by omega)) h2) (Bin.emits_end f)
          (by rw [List.append_nil]; exact hs fuel (by omega) q) x n hn
        obtain ⟨x2, n2, e2, k2⟩ := H.recv_exception (S := S) (L := L) (mem := mem) (m := m) binary_reads (c := ⟨some f, some f, some f, q + 1⟩) rfl
          (Bin.reads_header o.strictWrite m.name EXCEPTION (q + 1) hm.name (by decide) f hc.client hc.down)
          (Bin.reads_app (msd := msd) _ hl f hc.client fuel (by omega)) (Bin.runs_end f) x1 n1 r1
        refine ⟨x2, n2, k2.trans k1, ?_⟩
        unfold Client.call
        rw [P.run_bind, e1, andThen_ok]
        simp only [Option.isSome_none, Bool.false_eq_true, if_false, hone]
        exact e2
    · refine ⟨as', r, some e, h', (none, none), h5, hh, by rw [Returned, if_pos hone], max N fs.size, ?_⟩
      intro fuel hfu ρ ν W rest handler H q x n hn
      obtain ⟨x1, n1, e1, r1, k1⟩ := H.send (c := ⟨some f, some f, some f, q⟩) rfl rfl binary_holds
        (Bin.emits_header m.name CALL (q + 1) hm.name (by decide) f) (binary_writes f (h1 fuel (by omega)) h2) (Bin.emits_end f)
        (by rw [List.append_nil]; exact hs fuel (by omega) q) x n hn
      refine ⟨some x1, n1, k1, ?_⟩
      unfold Client.call
      rw [P.run_bind, e1, andThen_ok]
      simp only [Option.isSome_none, Bool.false_eq_true, if_false, hone, if_true]
      rfl

theorem http_calls (hS : S.Ok) {f i o : Bin} (hc : Compatible f i o) : ∀ (cs : List (Method × Attrs)) (h : η),
    (∀ c ∈ cs, Sound S sv c.1 c.2 ∧ (c.1.oneway = true → (S.structs c.1.result).members = [])) → ∃ rs N, Answered S sv h cs rs ∧
      ∀ fuel, N ≤ fuel → ∀ {ρ ν : Type} (W : Web ρ ν) (rest : ρ → ν → Bytes) (handler : ν → η),
      Site W rest handler i o (process binary binary S L mem msd fuel sv) → ∀ (q : I32) x n, handler n = h → ∃ c' y,
        (callAll (Client.call binary S L mem msd fuel) cs).run (http W) ⟨some f, some f, some f, q⟩ (asClient (x, [], n)) = (.ok (rs, c'), y)
  | [], h, _ => ⟨[], 0, .nil h, fun _ _ _ _ _ _ _ _ _ _ _ _ => ⟨_, _, rfl⟩⟩
  | (m, a) :: cs, h, hs => by
    obtain ⟨hm, hone⟩ := hs (m, a) List.mem_cons_self
    obtain ⟨as', r, err, h', res, k1, k2, k3, N, k4⟩ := http_call (L := L) (mem := mem) (msd := msd) hS hc hm hone h
    obtain ⟨rs, M, k5, k6⟩ := http_calls hS hc cs h' fun c hc => hs c (List.mem_cons_of_mem _ hc)
    refine ⟨res :: rs, max N M, .cons k1 k2 k3 k5, fun fuel hfu ρ ν W rest handler H q x n hn => ?_⟩
    obtain ⟨x1, n1, j1, e1⟩ := k4 fuel (by omega) W rest handler H q x n hn
    obtain ⟨c', y, e2⟩ := k6 fuel (by omega) W rest handler H (q + 1) x1 n1 j1
    refine ⟨c', y, ?_⟩
    rw [callAll, P.run_bind, e1, andThen_ok, P.run_bind, e2, andThen_ok, P.run_pure]

/-- C113.  Calls with a generated client over a POST client, to a site that answers
every request with what `Process` writes, return what the handler returned: for
any sequence of methods, oneway or not, with values and errors in any order. -/
theorem C113_http_calls (L : FloatLib) (mem : List Nat → Nat) (msd : Int) (hS : S.Ok) {f i o : Bin} (hc : Compatible f i o) (cs : List (Method × Attrs)) (h : η)
    (hs : ∀ c ∈ cs, Sound S sv c.1 c.2) (ho : ∀ c ∈ cs, c.1.oneway = true → (S.structs c.1.result).members = []) :
    ∃ rs N, Answered S sv h cs rs ∧ ∀ fuel, N ≤ fuel → ∀ {ρ ν : Type} (W : Web ρ ν) (rest : ρ → ν → Bytes) (handler : ν → η),
      Site W rest handler i o (process binary binary S L mem msd fuel sv) → ∀ n, handler n = h → ∃ c' y,
        (callAll (Client.call binary S L mem msd fuel) cs).run (http W) (Client.ofFactory f) (Http.newPost, n) = (.ok (rs, c'), y) := by
  obtain ⟨rs, N, h1, h2⟩ := http_calls (L := L) (mem := mem) (msd := msd) hS hc cs h fun c hc => ⟨hs c hc, ho c hc⟩
  exact ⟨rs, N, h1, fun fuel hf ρ ν W rest handler H n hn => h2 fuel hf W rest handler H 0 none n hn⟩

/-- A site: the state of the handler and the unread part of the last response. -/
def siteOf (i : ι) (o : ω) (proc : P (Server ι ω η) (Bool × GoErr)) : Web Unit (η × Bytes) where
  get n := (.ok (), n)
  post b n := match proc.run duplex ⟨i, o, n.1⟩ (b, []) with
    | (.ok (_, x), t) => ((b.length, .ok (200, ())), (x.handler, t.2))
    | _ => ((b.length, .error ⟨.other, 0, ascii "connection reset"⟩), n)
  readBody k _ n :=
    if n.2 = [] then (([], some endOfStream), n) else ((n.2.take k, none), (n.1, n.2.drop k))
  closeBody _ n := (none, n)

theorem siteOf_site (i : ι) (o : ω) (proc : P (Server ι ω η) (Bool × GoErr)) :
    Site (siteOf i o proc) (fun _ n => n.2) (fun n => n.1) i o proc where
  post b n a x t h := by
    refine ⟨(), (x.handler, t.2), ?_, rfl, rfl⟩
    simp only [siteOf, h]
  read_some k r n hk hn := by
    have hl : 0 < n.2.length := List.length_pos_iff.mpr hn
    refine ⟨min k n.2.length, (n.1, n.2.drop (min k n.2.length)), by omega, Nat.min_le_left .., Nat.min_le_right .., ?_, rfl⟩
    have ht : n.2.take k = n.2.take (min k n.2.length) := by
      simp [List.take_eq_take_iff, Nat.min_assoc]
    have hd : n.2.drop k = n.2.drop (min k n.2.length) := by
      rcases Nat.le_total k n.2.length with h | h
      · rw [Nat.min_eq_left h]
      · rw [Nat.min_eq_right h, List.drop_of_length_le h, List.drop_length]
    simp only [siteOf, if_neg hn, ht, hd]
  read_end k r n hk hn := ⟨endOfStream, n, by simp only [siteOf, if_pos hn], hn⟩
  read_handler k r n := by
    simp only [siteOf]
    split <;> rfl

example (x y : I32) := C113_http_calls (sv := sumService) noFloats (fun _ => 0) 64 sumSchema_ok (f := Bin.default) (i := Bin.default)
  (o := Bin.default) ⟨rfl, rfl, .inl rfl, .inl rfl⟩ [(noteMethod, [(1, .int32 y)]), (addMethod, [(1, .int32 x)])] 0
  (by
    intro c hc
    simp only [List.mem_cons, List.not_mem_nil, or_false] at hc
    rcases hc with rfl | rfl
    · exact note_sound _
    · exact add_sound _)
  (by
    intro c hc
    simp only [List.mem_cons, List.not_mem_nil, or_false] at hc
    rcases hc with rfl | rfl
    · exact fun _ => rfl
    · exact nofun)

end Thrift
