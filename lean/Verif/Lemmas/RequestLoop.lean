import Verif.Model.RequestLoop
import Verif.Spec.RequestLoop
import Verif.Lemmas.BinaryService
/-!
# The request loop
-/

namespace Thrift

section
variable {σ η : Type} {T : Transport σ} {inn out buf : σ → Bytes} {S : Schema} {L : FloatLib} {mem : List Nat → Nat} {msd : Int}
  {sv : Service η} {i o : Bin}

theorem Service.find_name {m : Method} {name : Bytes} (h : sv.find name = some m) : m.name = name := by
  have := List.find?_some h
  simpa using (of_decide_eq_true this).symm

theorem exception_bytes {strict : Bool} {name text : Bytes} {q : I32} {code : Int} (h : 0 < text.length) :
    BinarySpec.message strict name EXCEPTION q ++ BinarySpec.encode (.struct (newTApplicationException code text).tree) =
      exceptionReply strict name q text (BitVec.ofInt 32 code) := by
  unfold AppExc.tree exceptionReply
  rw [if_pos (by simpa only [newTApplicationException] using h)]
  rfl

/-- One request. -/
theorem Endpoint.ask (E : Endpoint T inn out buf) (hS : S.Ok) (hi : i.checkReadLength = false) (h : η) (a : Ask)
    (hp : a.Proper i.strictRead) (hf : a.Fit S L mem msd sv) :
    (∃ reply h' N, (∀ {asks replies left h''}, Talk S L mem msd sv o.strictWrite h' asks replies left h'' →
        Talk S L mem msd sv o.strictWrite h (a :: asks) (reply :: replies) left h'') ∧ ∀ fuel, N ≤ fuel →
      Serves T inn out buf (process binary binary S L mem msd fuel sv) ⟨i, o, h⟩ ⟨i, o, h'⟩ a.bytes reply (true, none)) ∨
    ∃ reply h' N e, (∀ asks, Talk S L mem msd sv o.strictWrite h (a :: asks) [reply] asks h') ∧ ∀ fuel, N ≤ fuel →
      Serves T inn out buf (process binary binary S L mem msd fuel sv) ⟨i, o, h⟩ ⟨i, o, h'⟩ a.bytes reply (false, some e) := by
  rcases hf with hu | ⟨m, as, hm, ha, hr, he⟩
  · have hf' : sv.find a.name = none := by
      rw [Service.find, List.find?_eq_none]
      intro m hmem
      simpa using fun h => hu m hmem h.symm
    have h17 : (ascii "Unknown function ").length = 17 := by decide
    have hn := hp.name
    refine .inr ⟨_, h, (Val.struct a.args).size,
      (newTApplicationException UNKNOWN_METHOD (ascii "Unknown function " ++ a.name)).err, fun asks => .unknown hu, fun fuel hfu => ?_⟩
    rw [show exceptionReply o.strictWrite a.name a.seqId (ascii "Unknown function " ++ a.name) 1 = _ from
      (exception_bytes (code := UNKNOWN_METHOD) (by rw [List.length_append, h17]; omega)).symm]
    exact E.serves_other (ip := binary) (op := binary) (h := h) (S := S) (L := L) (mem := mem) (msd := msd)
      (Bin.reads_header a.strict a.name a.type a.seqId (by omega) hp.type i hi hp.header) hf'
      (E.serves_unknown (Dec.skip msd (.struct a.args) fuel msd hfu (Bin.dec_val (.struct a.args) i hi hp.args)) (Bin.runs_end i)
        (E.binary_exception a.name (by omega) _
          (by simp only [newTApplicationException, List.length_append, h17]; omega) a.seqId o))
  · have hname := Service.find_name hm
    have hn : m.name.length < 2 ^ 31 := by have := hp.name; rw [hname]; omega
    have hm' : sv.find m.name = some m := by rw [hname]; exact hm
    obtain ⟨N, hN⟩ := ha
    have hread := Bin.reads_header a.strict m.name a.type a.seqId hn hp.type i hi hp.header
    rcases hh : sv.handle m h as with ⟨⟨r, _ | e⟩, h'⟩
    · left
      cases hone : m.oneway with
      | false =>
        rw [if_neg (by rw [hone]; decide)] at hr
        obtain ⟨hd, hr⟩ := hr
        obtain ⟨f1, f2⟩ := hr h r h' hh
        obtain ⟨gs, M, r', g1, g2, g3, g4, g5⟩ := result_tree (L := L) (mem := mem) hS f1 hd f2
        refine ⟨_, h', max N M, fun ht => .reply hm hone ⟨N, hN⟩ hh (gs := gs) ⟨g2, r', ⟨gs.size, fun fuel hfu i hi rest x => ?_⟩, g5⟩ ht,
          fun fuel hfu => ?_⟩
        · exact Bin.reads_object hS i hi (hS _) hfu g2 g3 g4 rest x
        · rw [Ask.bytes, ← hname]
          exact E.serves_known (op := binary) hread hm'
            (E.serves_reply (fun rest x => hN fuel (by omega) i hi rest x) (Bin.runs_end i) hh
              (by rw [hone]; exact E.binary_reply hn a.seqId o (g1 fuel (by omega)) g2))
      | true =>
        rw [if_pos hone] at hr
        refine ⟨_, h', N, fun ht => .oneway hm hone ⟨N, hN⟩ hh ht, fun fuel hfu => ?_⟩
        rw [Ask.bytes, ← hname]
        refine E.serves_known (op := binary) hread hm'
          (E.serves_reply (fun rest x => hN fuel hfu i hi rest x) (Bin.runs_end i) hh ?_)
        rw [hone]
        refine E.binary_reply (fs := .nil) hn a.seqId o ?_ trivial
        simp only [StructDef.sorted, StructDef.fresh, hr]
        rfl
    · have h26 : (ascii "Internal error processing ").length = 26 := by decide
      refine .inr ⟨_, h', N, e, fun asks => .failed hm ⟨N, hN⟩ hh, fun fuel hfu => ?_⟩
      rw [show exceptionReply o.strictWrite a.name a.seqId (ascii "Internal error processing " ++ a.name ++ ascii ": " ++ e.msg) 6 = _ from
        (exception_bytes (code := INTERNAL_ERROR) (by simp only [List.length_append, h26]; omega)).symm, Ask.bytes, ← hname]
      exact E.serves_known (op := binary) hread hm'
        (E.serves_failure (fun rest x => hN fuel hfu i hi rest x) (Bin.runs_end i) hh
          (E.binary_exception m.name hn (internalError m.name e) (internal_length (he h r e h' hh)) a.seqId o))

/-- At the end of the input. -/
theorem Endpoint.no_more (E : Endpoint T inn out buf) (hi : i.checkReadLength = false) (h : η) : ∃ e, ∀ fuel t, inn t = [] → ∃ t',
    (process binary binary S L mem msd fuel sv).run T ⟨i, o, h⟩ t = (.ok ((false, some e), ⟨i, o, h⟩), t') ∧ inn t' = [] ∧
      out t' ++ buf t' = out t ++ buf t := by
  obtain ⟨x, e, hx⟩ := Bin.header_missing i hi
  refine ⟨e, fun fuel t ht => ?_⟩
  obtain ⟨t', h1, h2⟩ := E.faithful.simulateP binary.readMessageBegin i t
  rw [ht, hx] at h1 h2
  simp only [Prod.mk.injEq] at h2
  refine ⟨t', ?_, h2.1.symm, h2.2.symm⟩
  unfold process
  rw [P.run_bind, P.run_input, h1]
  rfl

theorem requestLoop_go {π : Type} {proc : P π (Bool × GoErr)} {stopped : Nat → Bool} {fuel k : Nat} {s s' : π} {t t' : σ}
    (h : proc.run T s t = (.ok ((true, none), s'), t')) :
    (requestLoop proc stopped (fuel + 1) k).run T s t = (requestLoop proc stopped fuel (k + 1)).run T s' t' := by
  rw [requestLoop, P.run_bind, h]
  rfl

theorem requestLoop_end {π : Type} {proc : P π (Bool × GoErr)} {stopped : Nat → Bool} {fuel k : Nat} {s s' : π} {t t' : σ} {e : Err}
    (h : proc.run T s t = (.ok ((false, some e), s'), t')) :
    (requestLoop proc stopped (fuel + 1) k).run T s t = (.ok ((), s'), t') := by
  rw [requestLoop, P.run_bind, h]
  cases hs : stopped k <;> simp [andThen_ok] <;> rfl

/-- A whole connection. -/
theorem Endpoint.talk (E : Endpoint T inn out buf) (hS : S.Ok) (hi : i.checkReadLength = false) : ∀ (asks : List Ask) (h : η),
    (∀ a ∈ asks, a.Proper i.strictRead ∧ a.Fit S L mem msd sv) →
    ∃ replies left h' N, Talk S L mem msd sv o.strictWrite h asks replies left h' ∧ ∀ fuel, N ≤ fuel → ∀ stopped rounds k t,
      asks.length < rounds → inn t = (asks.map Ask.bytes).flatten → ∃ t',
      (requestLoop (process binary binary S L mem msd fuel sv) stopped rounds k).run T ⟨i, o, h⟩ t = (.ok ((), ⟨i, o, h'⟩), t') ∧
        inn t' = (left.map Ask.bytes).flatten ∧ out t' ++ buf t' = out t ++ buf t ++ replies.flatten
  | [], h, _ => by
    obtain ⟨e, he⟩ := E.no_more (S := S) (L := L) (mem := mem) (msd := msd) (sv := sv) (o := o) hi h
    refine ⟨[], [], h, 0, .done h, fun fuel _ stopped rounds k t hr ht => ?_⟩
    obtain ⟨t', h1, h2, h3⟩ := he fuel t ht
    obtain ⟨n, rfl⟩ : ∃ n, rounds = n + 1 := ⟨rounds - 1, by simp at hr; omega⟩
    exact ⟨t', requestLoop_end h1, h2, by simpa using h3⟩
  | a :: asks, h, ha => by
    obtain ⟨hp, hf⟩ := ha a List.mem_cons_self
    rcases E.ask (o := o) hS hi h a hp hf with ⟨reply, h', N, h1, h2⟩ | ⟨reply, h', N, e, h1, h2⟩
    · obtain ⟨replies, left, h'', M, g1, g2⟩ := E.talk hS hi asks h' fun b hb => ha b (List.mem_cons_of_mem _ hb)
      refine ⟨reply :: replies, left, h'', max N M, h1 g1, fun fuel hfu stopped rounds k t hr ht => ?_⟩
      obtain ⟨n, rfl⟩ : ∃ n, rounds = n + 1 := ⟨rounds - 1, by simp at hr; omega⟩
      obtain ⟨t1, e1, i1, o1, b1⟩ := h2 fuel (by omega) t _ ht
      obtain ⟨t2, e2, i2, o2⟩ := g2 fuel (by omega) stopped n (k + 1) t1 (by simp at hr; omega) i1
      refine ⟨t2, by rw [requestLoop_go e1, e2], i2, ?_⟩
      rw [o2, o1, b1]; simp
    · refine ⟨[reply], asks, h', N, h1 asks, fun fuel hfu stopped rounds k t hr ht => ?_⟩
      obtain ⟨n, rfl⟩ : ∃ n, rounds = n + 1 := ⟨rounds - 1, by simp at hr; omega⟩
      obtain ⟨t1, e1, i1, o1, b1⟩ := h2 fuel hfu t _ ht
      exact ⟨t1, requestLoop_end e1, i1, by rw [o1, b1]; simp⟩

end
end Thrift
