import Verif.Spec.AnyRequests
import Verif.Lemmas.RequestLoop
import Verif.Lemmas.Keeps
import Verif.Lemmas.Digest
import Verif.Lemmas.ReadTotal
import Verif.Lemmas.Quiet
import Verif.Lemmas.HttpCall
import Verif.Props.BinaryForms
/-!
# Arbitrary bytes on a connection
-/

namespace Thrift

/-! ## Exceptions with texts of any length -/

theorem be_mod : ∀ (k n : Nat), be k (n % 256 ^ k) = be k n
  | 0, _ => rfl
  | k + 1, n => by
    have h1 : n % 256 ^ (k + 1) / 256 = n / 256 % 256 ^ k := by
      rw [Nat.pow_succ, Nat.mul_comm, Nat.mod_mul_right_div_self]
    have h2 : BitVec.ofNat 8 (n % 256 ^ (k + 1)) = BitVec.ofNat 8 n := by
      apply BitVec.eq_of_toNat_eq
      simp only [BitVec.toNat_ofNat]
      exact Nat.mod_mod_of_dvd _ ⟨256 ^ k, by rw [Nat.pow_succ, Nat.mul_comm]⟩
    rw [be, be, h1, h2, be_mod k]

theorem Bin.emits_text (bs : Bytes) (s : Bin) : Emits (writeVal binary (.str bs)) s s (BinarySpec.encode (.str bs)) := by
  have := Bin.emits_string' bs s
  rw [BitVec.toNat_ofNat, show (2 : Nat) ^ 32 = 256 ^ 4 from rfl, be_mod] at this
  exact this

theorem Bin.emits_app' (x : AppExc) (o : Bin) : Emits (appWrite binary x) o o (BinarySpec.encode (.struct x.tree)) := by
  refine Emits.sim ?_ (sim_app blind_binary x)
  unfold AppExc.tree
  by_cases hm : x.message.length > 0
  · simp only [hm, if_true, writeVal]
    refine (Emits.seq (a := []) (Emits.pure o) (Emits.seq (a := Bin.encodeBody (.cons 1 (.str x.message) (.cons 2 (.i32 x.type) .nil)))
      ?_ (Emits.seq (Bin.emits_byte 0 o) (Bin.emits_nop o)))).congr ?_
    · simp only [writeFields]
      refine (Emits.seq (Bin.emits_fieldBegin [] _ 1 o) (Emits.seq (Bin.emits_text x.message o)
        (Emits.seq (Bin.emits_nop o) (Bin.emits_fields (.cons 2 (.i32 x.type) .nil) o ⟨trivial, trivial⟩)))).congr ?_
      simp [Bin.encodeBody, Val.type]
      rfl
    · simp [BinarySpec.encode, Bin.encodeBody_stop]
  · simp only [hm, if_false]
    exact Bin.emits_val _ o ⟨trivial, trivial⟩

theorem refusal_bytes {strict : Bool} {name text : Bytes} {q : I32} {code : Int} :
    BinarySpec.message strict name EXCEPTION q ++ BinarySpec.encode (.struct (newTApplicationException code text).tree) =
      refusal strict name q text (BitVec.ofInt 32 code) := by
  unfold AppExc.tree refusal exceptionReply
  cases text with
  | nil => rfl
  | cons a l =>
    rw [if_pos (by simp [newTApplicationException]), if_neg (by simp)]
    rfl

theorem loose_name {strict : Bool} {name hd : Bytes} {ty q : I32} (h : BinarySpec.LooseMessage strict name ty q hd) :
    name.length < 2 ^ 31 ∧ 0 < hd.length := by
  rcases h with ⟨x, y, a, -, ⟨n, hn, -⟩, rfl⟩ | ⟨-, hn, y, -, rfl⟩
  · refine ⟨?_, by simp⟩
    have := n.toInt_lt
    omega
  · exact ⟨hn, by simp; omega⟩

section
variable {σ η : Type} {T : Transport σ} {inn out buf : σ → Bytes} {S : Schema} {L : FloatLib} {mem : List Nat → Nat} {msd : Int}
  {sv : Service η} {i o : Bin}

theorem Endpoint.refuses (E : Endpoint T inn out buf) (name : Bytes) (hn : name.length < 2 ^ 31) (code : Int) (text : Bytes) (q : I32) (o : Bin) :
    Sends T inn out buf (sendException binary name (newTApplicationException code text) q) o o
      (refusal o.strictWrite name q text (BitVec.ofInt 32 code)) () := by
  have := E.sends_exception (Bin.emits_header name EXCEPTION q hn (by decide) o) (Bin.emits_app' (newTApplicationException code text) o) (Bin.emits_end o)
  rwa [List.append_nil, List.append_nil, refusal_bytes] at this

/-! ## Reading -/

/-- What only reads does the same everywhere. -/
theorem Endpoint.looks (E : Endpoint T inn out buf) {m : P π α} (hm : m.ReadOnly) (s : π) (t : σ) :
    ∃ t', m.run T s t = ((m.run memory s (inn t)).1, t') ∧ inn t' = (m.run memory s (inn t)).2 ∧ out t' ++ buf t' = out t ++ buf t := by
  obtain ⟨t', h1, h2, h3, -⟩ := E.faithful.toFaithfulReaderOn.simulateP m hm s t trivial
  exact ⟨t', h1, h2, h3⟩

/-- Reading arguments ends, one way or the other. -/
theorem makes_or_breaks (hi : i.checkReadLength = false) (sd : StructDef) (inp : Bytes) :
    (∃ as e rest, Makes S L mem msd i sd inp as e rest ∧ rest.length ≤ inp.length) ∨ Breaks S L mem msd i sd inp := by
  have W := wp_readInto' (S := S) (L := L) (mem := mem) (msd := msd) (binary_digests (inp.length + 1)) (inp.length + 3) [] sd (sd.fresh S) i inp (by omega) (by omega) []
  obtain ⟨t', g1, g2, -⟩ := duplex_endpoint.looks (binary_reads.gen (S := S) (L := L) (mem := mem) (msd := msd) (inp.length + 3) [] sd) i (inp, [])
  have more : ∀ fuel, inp.length + 3 ≤ fuel → ((genRead binary S L mem msd (inp.length + 3) [] sd).run memory i inp).1 ≠ .stuck →
      (genRead binary S L mem msd fuel [] sd).run memory i inp = (genRead binary S L mem msd (inp.length + 3) [] sd).run memory i inp :=
    fun fuel hf hs => (le_read (Proto.Le.refl _) S L mem msd hf [] sd).run memory i inp hs
  rcases W with ⟨⟨as, e⟩, i', rest, h, hl⟩ | ⟨rest, h, -⟩
  · left
    have h := (show _ = _ from g1).symm.trans (show (genRead binary S L mem msd (inp.length + 3) [] sd).run duplex i (inp, []) = _ from h)
    simp only [Prod.mk.injEq] at h
    obtain ⟨h1, rfl⟩ := h
    have h2 : (genRead binary S L mem msd (inp.length + 3) [] sd).run memory i inp = (.ok ((as, e), i'), rest) := Prod.ext h1 g2.symm
    obtain rfl := (binary_keeping.gen (S := S) (L := L) (mem := mem) (msd := msd) (inp.length + 3) [] sd).run hi h2
    exact ⟨as, e, rest, ⟨inp.length + 3, fun fuel hf => by rw [more fuel hf (by rw [h2]; simp), h2]⟩, hl⟩
  · right
    have h := (show _ = _ from g1).symm.trans (show (genRead binary S L mem msd (inp.length + 3) [] sd).run duplex i (inp, []) = _ from h)
    simp only [Prod.mk.injEq] at h
    exact ⟨inp.length + 3, fun fuel hf => by rw [more fuel hf (by rw [h.1]; simp), h.1]⟩

/-- Arguments without containers and `binary` do not break the reader. -/
theorem direct_makes {k : Nat} (hd : S.Direct k) (inp : Bytes) : ¬ Breaks S L mem msd i (S.structs k) inp := by
  rintro ⟨N, hN⟩
  obtain ⟨R, hk, hR⟩ := hd
  have hN := hN (max N (inp.length + 3)) (Nat.le_max_left ..)
  obtain ⟨t', g1, -⟩ := duplex_endpoint.looks (binary_reads.gen (S := S) (L := L) (mem := mem) (msd := msd) (max N (inp.length + 3)) [] (S.structs k)) i (inp, [])
  rcases Bin.wp_read (L := L) (mem := mem) (msd := msd) hR (max N (inp.length + 3)) [] k hk i inp (by omega) [] with ⟨a, s', r, h, -⟩ | ⟨_, _, hx⟩
  · rw [g1] at h
    rw [show ((inp, []) : Bytes × Bytes).1 = inp from rfl, hN] at h
    simp at h
  · exact hx.elim

/-! ## One request -/

/-- `proc` goes from `inp` to `rest` with `reply` written. -/
def Step (T : Transport σ) (inn out buf : σ → Bytes) (proc : P π α) (s : π) (inp : Bytes) (r : Res (α × π)) (reply : Bytes) (Q : Bytes → Prop) : Prop :=
  ∀ t, inn t = inp → ∃ t', proc.run T s t = (r, t') ∧ Q (inn t') ∧ out t' ++ buf t' = out t ++ buf t ++ reply

theorem Endpoint.step_header (E : Endpoint T inn out buf) (hi : i.checkReadLength = false) {inp name body : Bytes} {q : I32} {h : η}
    (hh : Headed i.strictRead inp name q body) {fuel : Nat} {r : Res ((Bool × GoErr) × Server Bin Bin η)} {reply : Bytes} {Q : Bytes → Prop}
    (hk : Step T inn out buf (match sv.find name with
      | none => processUnknown binary binary msd fuel name q
      | some m => processMethod binary binary S L mem msd fuel sv m q) ⟨i, o, h⟩ body r reply Q) :
    Step T inn out buf (process binary binary S L mem msd fuel sv) ⟨i, o, h⟩ inp r reply Q := by
  obtain ⟨hd, ty, rfl, hm⟩ := hh
  intro t ht
  obtain ⟨t1, e1, j1, o1⟩ := E.looks binary_reads.messageBegin i t
  have hr : binary.readMessageBegin.run memory i (inn t) = (.ok (((name, ty, q), none), i), body) := by
    rw [ht]
    exact (C191_message i hi (hd ++ body) name ty q i body).2 ⟨rfl, hd, rfl, hm⟩
  rw [hr] at e1 j1
  obtain ⟨t2, e2, j2, o2⟩ := hk t1 j1
  refine ⟨t2, ?_, j2, by rw [o2, o1]⟩
  unfold process
  rw [P.run_bind, P.run_input, e1, putBack_ok, andThen_ok]
  exact e2

/-- No header. -/
theorem Endpoint.step_silent (E : Endpoint T inn out buf) (hi : i.checkReadLength = false) {inp : Bytes} {h : η}
    (no : ∀ name q body, ¬ Headed i.strictRead inp name q body) :
    ∃ e, ∀ fuel, Step T inn out buf (process binary binary S L mem msd fuel sv) ⟨i, o, h⟩ inp (.ok ((false, some e), ⟨i, o, h⟩)) [] fun _ => True := by
  obtain ⟨⟨name, ty, q⟩, e, rest, hr⟩ : ∃ x e rest, binary.readMessageBegin.run memory i inp = (.ok ((x, e), i), rest) := by
    obtain ⟨t', g1, g2, -⟩ := duplex_endpoint.looks binary_reads.messageBegin i (inp, [])
    rcases Bin.wp_message i inp [] with ⟨⟨x, e⟩, i', rest, h, -⟩ | ⟨_, _, hx⟩
    · have h := (show _ = _ from g1).symm.trans (show binary.readMessageBegin.run duplex i (inp, []) = _ from h)
      simp only [Prod.mk.injEq] at h
      obtain ⟨h1, rfl⟩ := h
      have h2 : binary.readMessageBegin.run memory i inp = (.ok ((x, e), i'), rest) := Prod.ext h1 g2.symm
      obtain rfl := binary_keeping.messageBegin.run hi h2
      exact ⟨x, e, rest, h2⟩
    · exact hx.elim
  cases e with
  | none =>
    obtain ⟨-, hd, h1, h2⟩ := (C191_message i hi inp name ty q i rest).1 hr
    exact absurd ⟨hd, ty, h1, h2⟩ (no name q rest)
  | some e =>
    refine ⟨e, fun fuel t ht => ?_⟩
    obtain ⟨t1, e1, j1, o1⟩ := E.looks binary_reads.messageBegin i t
    rw [ht, hr] at e1
    refine ⟨t1, ?_, trivial, by rw [o1]; simp⟩
    unfold process
    rw [P.run_bind, P.run_input, e1]
    rfl

theorem Step.weaken {proc : P π α} {s : π} {inp reply : Bytes} {r : Res (α × π)} {Q : Bytes → Prop}
    (h : Step T inn out buf proc s inp r reply Q) : Step T inn out buf proc s inp r reply fun _ => True := by
  intro t ht
  obtain ⟨t', h1, -, h3⟩ := h t ht
  exact ⟨t', h1, trivial, h3⟩

theorem Endpoint.step_read (E : Endpoint T inn out buf) {β : Type} {k : P Bin β} (hk : k.ReadOnly) {f : β → P (Server Bin Bin η) α}
    {a : β} {body rest : Bytes} {h : η} (hr : k.run memory i body = (.ok (a, i), rest)) {r : Res (α × Server Bin Bin η)} {reply : Bytes}
    {Q : Bytes → Prop} (hf : Step T inn out buf (f a) ⟨i, o, h⟩ rest r reply Q) :
    Step T inn out buf (P.input k >>= f) ⟨i, o, h⟩ body r reply Q := by
  intro t ht
  obtain ⟨t1, e1, j1, o1⟩ := E.looks hk i t
  rw [ht, hr] at e1 j1
  obtain ⟨t2, e2, j2, o2⟩ := hf t1 j1
  exact ⟨t2, by rw [P.run_bind, P.run_input, e1, putBack_ok, andThen_ok, e2], j2, by rw [o2, o1]⟩

theorem step_send {k : P Bin β} {f : β → P (Server Bin Bin η) α} {b : β} {a : α} {inp reply : Bytes} {h : η}
    (hk : Sends T inn out buf k o o reply b) (hf : f b = Pure.pure a) :
    Step T inn out buf (P.output k >>= f) ⟨i, o, h⟩ inp (.ok (a, ⟨i, o, h⟩)) reply (· = inp) := by
  intro t ht
  obtain ⟨t1, e1, j1, o1, b1⟩ := hk t
  refine ⟨t1, ?_, j1.trans ht, by rw [o1, b1, List.append_nil]⟩
  rw [P.run_bind, P.run_output, e1, putBack_ok, andThen_ok, hf, P.run_pure]

/-- One request: it is answered and the connection goes on, or the connection ends, or
the server panics. -/
theorem Endpoint.step (E : Endpoint T inn out buf) (hS : S.Ok) (hi : i.checkReadLength = false) (hv : sv.Able S) (h : η) (inp : Bytes) :
    (∃ rest reply h' N, rest.length < inp.length ∧ (∀ {replies fate}, Serving S L mem msd i sv o.strictWrite h' rest replies fate →
        Serving S L mem msd i sv o.strictWrite h inp (reply :: replies) fate) ∧ ∀ fuel, N ≤ fuel →
      Step T inn out buf (process binary binary S L mem msd fuel sv) ⟨i, o, h⟩ inp (.ok ((true, none), ⟨i, o, h'⟩)) reply (· = rest)) ∨
    (∃ replies h' N e, Serving S L mem msd i sv o.strictWrite h inp replies (.ended h') ∧ ∀ fuel, N ≤ fuel →
      Step T inn out buf (process binary binary S L mem msd fuel sv) ⟨i, o, h⟩ inp (.ok ((false, some e), ⟨i, o, h'⟩)) replies.flatten
        fun _ => True) ∨
    (∃ N, Serving S L mem msd i sv o.strictWrite h inp [] .panicked ∧ ∀ fuel, N ≤ fuel →
      Step T inn out buf (process binary binary S L mem msd fuel sv) ⟨i, o, h⟩ inp .panic [] fun _ => True) := by
  by_cases hh : ∃ name q body, Headed i.strictRead inp name q body
  · obtain ⟨name, q, body, hh⟩ := hh
    have hlen : body.length < inp.length ∧ name.length < 2 ^ 31 := by
      obtain ⟨hd, ty, rfl, hm⟩ := hh
      have := loose_name hm
      simp only [List.length_append]
      omega
    obtain ⟨hlen, hn⟩ := hlen
    cases hm : sv.find name with
    | none =>
      have hu : ∀ m ∈ sv.methods, m.name ≠ name := by
        rw [Service.find, List.find?_eq_none] at hm
        intro m hmem he
        exact hm m hmem (by simpa using he.symm)
      refine .inr (.inl ⟨_, h, body.length + 2, (newTApplicationException UNKNOWN_METHOD (ascii "Unknown function " ++ name)).err, .unknown hh hu, fun fuel hf => E.step_header hi hh ?_⟩)
      rw [hm]
      obtain ⟨e, rest, hr⟩ : ∃ e rest, (skipDefaultDepth binary msd fuel TT.STRUCT).run memory i body = (.ok (e, i), rest) := by
        obtain ⟨t', g1, g2, -⟩ := duplex_endpoint.looks (binary_reads.skip msd fuel TT.STRUCT msd) i (body, [])
        rcases Bin.wp_skip msd fuel TT.STRUCT msd i body (by omega) [] with ⟨e, i', rest, h, -⟩ | ⟨_, _, hx⟩
        · have h := (show _ = _ from g1).symm.trans h
          simp only [Prod.mk.injEq] at h
          obtain ⟨h1, rfl⟩ := h
          have h2 : (skip binary msd fuel TT.STRUCT msd).run memory i body = (.ok (e, i'), rest) := Prod.ext h1 g2.symm
          obtain rfl := (binary_keeping.skip msd fuel TT.STRUCT msd).run hi h2
          exact ⟨e, rest, h2⟩
        · exact hx.elim
      refine E.step_read (binary_reads.skip msd fuel TT.STRUCT msd) hr (E.step_read binary_reads.messageEnd (a := none) rfl ?_)
      rw [List.flatten_cons, List.flatten_nil, List.append_nil]
      exact Step.weaken (step_send (f := fun _ => (Pure.pure
        (false, some (newTApplicationException UNKNOWN_METHOD (ascii "Unknown function " ++ name)).err) : P (Server Bin Bin η) _))
        (E.refuses name hn UNKNOWN_METHOD (ascii "Unknown function " ++ name) q o) rfl)
    | some m =>
      obtain rfl := Service.find_name hm
      have hmem : m ∈ sv.methods := List.mem_of_find?_eq_some hm
      have hr := hv m hmem
      rcases makes_or_breaks (S := S) (L := L) (mem := mem) (msd := msd) hi (S.structs m.args) body with ⟨as, e, rest, ⟨N, hN⟩, hl⟩ | ⟨N, hN⟩
      · cases e with
        | some e =>
          refine .inr (.inl ⟨_, h, N, e, .malformed hh hm ⟨N, hN⟩, fun fuel hf => E.step_header hi hh ?_⟩)
          rw [hm]
          show Step T inn out buf (processMethod binary binary S L mem msd fuel sv m q) _ _ _ _ _
          unfold processMethod
          refine E.step_read (binary_reads.gen fuel [] _) (hN fuel hf) (E.step_read binary_reads.messageEnd (a := none) rfl ?_)
          rw [List.flatten_cons, List.flatten_nil, List.append_nil]
          exact Step.weaken (step_send (f := fun _ => (Pure.pure (false, some e) : P (Server Bin Bin η) _))
            (E.refuses m.name hn PROTOCOL_ERROR e.msg q o) rfl)
        | none =>
          rcases hc : sv.handle m h as with ⟨⟨r, _ | e⟩, h'⟩
          · left
            cases hone : m.oneway with
            | false =>
              rw [if_neg (by rw [hone]; decide)] at hr
              obtain ⟨hd, hr⟩ := hr
              obtain ⟨f1, f2⟩ := hr h as r h' hc
              obtain ⟨gs, M, r', g1, g2, g3, g4, g5⟩ := result_tree (L := L) (mem := mem) hS f1 hd f2
              refine ⟨rest, _, h', max N M, by omega, fun ht => .reply hh hm hone ⟨N, hN⟩ hc (gs := gs)
                ⟨g2, r', ⟨gs.size, fun fuel hfu i hi rest x => Bin.reads_object hS i hi (hS _) hfu g2 g3 g4 rest x⟩, g5⟩ ht,
                fun fuel hf => E.step_header hi hh ?_⟩
              rw [hm]
              show Step T inn out buf (processMethod binary binary S L mem msd fuel sv m q) _ _ _ _ _
              unfold processMethod
              refine E.step_read (binary_reads.gen fuel [] _) (hN fuel (by omega)) (E.step_read binary_reads.messageEnd (a := none) rfl ?_)
              intro t ht
              obtain ⟨t', e1, k⟩ := (step_send (i := i) (h := h') (inp := rest) (f := fun err => (Pure.pure (err.isNone, err) : P (Server Bin Bin η) _))
                (E.binary_reply hn q o (g1 fuel (by omega)) g2) rfl) t ht
              refine ⟨t', Eq.trans ?_ e1, k⟩
              simp only [P.run_bind, P.run_get, andThen_ok, hc, P.run_modify, hone, Bool.false_eq_true, if_false]
            | true =>
              rw [if_pos hone] at hr
              refine ⟨rest, _, h', N, by omega, fun ht => .oneway hh hm hone ⟨N, hN⟩ hc ht, fun fuel hf => E.step_header hi hh ?_⟩
              rw [hm]
              show Step T inn out buf (processMethod binary binary S L mem msd fuel sv m q) _ _ _ _ _
              unfold processMethod
              refine E.step_read (binary_reads.gen fuel [] _) (hN fuel (by omega)) (E.step_read binary_reads.messageEnd (a := none) rfl ?_)
              intro t ht
              obtain ⟨t', e1, k⟩ := (step_send (i := i) (h := h') (inp := rest) (f := fun err => (Pure.pure (err.isNone, err) : P (Server Bin Bin η) _))
                (E.binary_reply (S := S) (fuel := fuel) (r := (S.structs m.result).fresh S) (fs := .nil) hn q o
                  (by simp only [StructDef.sorted, StructDef.fresh, hr]; rfl) trivial) rfl) t ht
              refine ⟨t', Eq.trans ?_ e1, k⟩
              simp only [P.run_bind, P.run_get, andThen_ok, hc, P.run_modify, hone, if_true]
          · refine .inr (.inl ⟨_, h', N, e, .failed hh hm ⟨N, hN⟩ hc, fun fuel hf => E.step_header hi hh ?_⟩)
            rw [hm]
            show Step T inn out buf (processMethod binary binary S L mem msd fuel sv m q) _ _ _ _ _
            unfold processMethod
            refine E.step_read (binary_reads.gen fuel [] _) (hN fuel hf) (E.step_read binary_reads.messageEnd (a := none) rfl ?_)
            rw [List.flatten_cons, List.flatten_nil, List.append_nil]
            intro t ht
            obtain ⟨t', e1, k⟩ := (step_send (i := i) (h := h') (inp := rest) (f := fun _ => (Pure.pure (false, some e) : P (Server Bin Bin η) _))
              (E.refuses m.name hn INTERNAL_ERROR (ascii "Internal error processing " ++ m.name ++ ascii ": " ++ e.msg) q o) rfl).weaken t ht
            refine ⟨t', Eq.trans ?_ e1, k⟩
            simp only [P.run_bind, P.run_get, andThen_ok, hc, P.run_modify]
      · refine .inr (.inr ⟨N, .broken hh hm ⟨N, hN⟩, fun fuel hf => E.step_header hi hh ?_⟩)
        rw [hm]
        intro t ht
        obtain ⟨t1, e1, j1, o1⟩ := E.looks (binary_reads.gen (S := S) (L := L) (mem := mem) (msd := msd) fuel [] (S.structs m.args)) i t
        rw [ht, hN fuel hf] at e1
        refine ⟨t1, ?_, trivial, by rw [o1]; simp⟩
        show (processMethod binary binary S L mem msd fuel sv m q).run T _ _ = _
        unfold processMethod
        rw [P.run_bind, P.run_input, e1]
        rfl
  · have no : ∀ name q body, ¬ Headed i.strictRead inp name q body := fun name q body h => hh ⟨name, q, body, h⟩
    obtain ⟨e, he⟩ := E.step_silent (S := S) (L := L) (mem := mem) (msd := msd) (sv := sv) (o := o) (h := h) hi no
    exact .inr (.inl ⟨[], h, 0, e, .silent no, fun fuel _ => he fuel⟩)

/-! ## The connection -/

/-- The outcome of the request loop. -/
def Fate.outcome (i o : Bin) : Fate η → Res (Unit × Server Bin Bin η)
  | .ended h => .ok ((), ⟨i, o, h⟩)
  | .panicked => .panic

theorem Endpoint.serving (E : Endpoint T inn out buf) (hS : S.Ok) (hi : i.checkReadLength = false) (hv : sv.Able S) : ∀ (n : Nat) (inp : Bytes) (h : η),
    inp.length ≤ n → ∃ replies fate N, Serving S L mem msd i sv o.strictWrite h inp replies fate ∧
      ∀ fuel, N ≤ fuel → ∀ stopped rounds k t, inp.length < rounds → inn t = inp → ∃ t',
        (requestLoop (process binary binary S L mem msd fuel sv) stopped rounds k).run T ⟨i, o, h⟩ t = (fate.outcome i o, t') ∧
          out t' ++ buf t' = out t ++ buf t ++ replies.flatten := by
  intro n
  induction n with
  | zero => exact go 0 (fun _ _ hl => absurd hl (by omega))
  | succ n ih => exact go (n + 1) fun inp h hl => ih inp h (by omega)
where
  go (n : Nat) (ih : ∀ (inp : Bytes) (h : η), inp.length < n → ∃ replies fate N, Serving S L mem msd i sv o.strictWrite h inp replies fate ∧
      ∀ fuel, N ≤ fuel → ∀ stopped rounds k t, inp.length < rounds → inn t = inp → ∃ t',
        (requestLoop (process binary binary S L mem msd fuel sv) stopped rounds k).run T ⟨i, o, h⟩ t = (fate.outcome i o, t') ∧
          out t' ++ buf t' = out t ++ buf t ++ replies.flatten) : ∀ (inp : Bytes) (h : η),
    inp.length ≤ n → ∃ replies fate N, Serving S L mem msd i sv o.strictWrite h inp replies fate ∧
      ∀ fuel, N ≤ fuel → ∀ stopped rounds k t, inp.length < rounds → inn t = inp → ∃ t',
        (requestLoop (process binary binary S L mem msd fuel sv) stopped rounds k).run T ⟨i, o, h⟩ t = (fate.outcome i o, t') ∧
          out t' ++ buf t' = out t ++ buf t ++ replies.flatten := by
    intro inp h hl
    rcases E.step (L := L) (mem := mem) (msd := msd) (o := o) hS hi hv h inp with
      ⟨rest, reply, h', N, h1, h2, h3⟩ | ⟨replies, h', N, e, h1, h2⟩ | ⟨N, h1, h2⟩
    · obtain ⟨replies, fate, M, g1, g2⟩ := ih rest h' (by omega)
      refine ⟨reply :: replies, fate, max N M, h2 g1, fun fuel hf stopped rounds k t hr ht => ?_⟩
      obtain ⟨n, rfl⟩ : ∃ n, rounds = n + 1 := ⟨rounds - 1, by omega⟩
      obtain ⟨t1, e1, j1, o1⟩ := h3 fuel (by omega) t ht
      obtain ⟨t2, e2, o2⟩ := g2 fuel (by omega) stopped n (k + 1) t1 (by omega) j1
      exact ⟨t2, by rw [requestLoop_go e1, e2], by rw [o2, o1]; simp⟩
    · refine ⟨replies, .ended h', N, h1, fun fuel hf stopped rounds k t hr ht => ?_⟩
      obtain ⟨n, rfl⟩ : ∃ n, rounds = n + 1 := ⟨rounds - 1, by omega⟩
      obtain ⟨t1, e1, -, o1⟩ := h2 fuel hf t ht
      exact ⟨t1, requestLoop_end e1, o1⟩
    · refine ⟨[], .panicked, N, h1, fun fuel hf stopped rounds k t hr ht => ?_⟩
      obtain ⟨n, rfl⟩ : ∃ n, rounds = n + 1 := ⟨rounds - 1, by omega⟩
      obtain ⟨t1, e1, -, o1⟩ := h2 fuel hf t ht
      refine ⟨t1, ?_, o1⟩
      rw [requestLoop, P.run_bind, e1]
      rfl

/-- The reader never breaks if the arguments are without containers and `binary`. -/
theorem Serving.ends {strict : Bool} (hd : ∀ m ∈ sv.methods, S.Direct m.args) {h : η} {inp : Bytes} {replies : List Bytes} {fate : Fate η}
    (hs : Serving S L mem msd i sv strict h inp replies fate) : ∃ h', fate = .ended h' := by
  induction hs with
  | silent => exact ⟨_, rfl⟩
  | reply _ _ _ _ _ _ _ ih => exact ih
  | oneway _ _ _ _ _ _ ih => exact ih
  | failed => exact ⟨_, rfl⟩
  | malformed => exact ⟨_, rfl⟩
  | unknown => exact ⟨_, rfl⟩
  | broken _ known args => exact absurd args (direct_makes (hd _ (List.mem_of_find?_eq_some known)) _)

end
end Thrift
