import Verif.Spec.CompactTalk
import Verif.Lemmas.RequestLoop
/-!
# The request loop over the compact protocol
-/

namespace Thrift

section
variable {σ η : Type} {T : Transport σ} {inn out buf : σ → Bytes} {S : Schema} {L : FloatLib} {mem : List Nat → Nat} {msd : Int}
  {sv : Service η} {o : Cmp} {fv : Nat}

theorem cException_bytes {name text : Bytes} {q : I32} {code : Int} (h : 0 < text.length) :
    CompactSpec.message name EXCEPTION q ++ CompactSpec.encode (.struct (newTApplicationException code text).tree) =
      cExceptionReply name q text (BitVec.ofInt 32 code) := by
  unfold AppExc.tree cExceptionReply
  rw [if_pos (by simpa only [newTApplicationException] using h)]
  rfl

/-- One request. -/
theorem Endpoint.cAsk (E : Endpoint T inn out buf) (hS : S.Ok) (hc : S.Compactable) (h10 : 10 ≤ fv) (ho : o.booleanField = none) (h : η) (a : CAsk)
    (hp : a.Proper) (hf : a.Fit fv S L mem msd sv True) :
    (∃ reply h' N, (∀ {asks replies left h''}, CTalk fv S L mem msd sv h' asks replies left h'' →
        CTalk fv S L mem msd sv h (a :: asks) (reply :: replies) left h'') ∧ ∀ fuel, N ≤ fuel → ∀ i : Cmp, i.boolValueIsNotNull = false →
      ∃ i', i'.boolValueIsNotNull = false ∧
      Serves T inn out buf (process (compact fv) (compact fv) S L mem msd fuel sv) ⟨i, o, h⟩ ⟨i', o, h'⟩ a.bytes reply (true, none)) ∨
    ∃ reply h' N e, (∀ asks, CTalk fv S L mem msd sv h (a :: asks) [reply] asks h') ∧ ∀ fuel, N ≤ fuel → ∀ i : Cmp, i.boolValueIsNotNull = false →
      ∃ i', Serves T inn out buf (process (compact fv) (compact fv) S L mem msd fuel sv) ⟨i, o, h⟩ ⟨i', o, h'⟩ a.bytes reply (false, some e) := by
  rcases hf with ⟨hu, hw, ht⟩ | ⟨m, as, hm, ha, hr, he⟩
  · have hf' : sv.find a.name = none := by
      rw [Service.find, List.find?_eq_none]
      intro m hmem
      simpa using fun h => hu m hmem h.symm
    have h17 : (ascii "Unknown function ").length = 17 := by decide
    have hn := hp.name
    refine .inr ⟨_, h, (Val.struct a.args).size,
      (newTApplicationException UNKNOWN_METHOD (ascii "Unknown function " ++ a.name)).err, fun asks => .unknown hu, fun fuel hfu i hi => ?_⟩
    obtain ⟨i', hd, hk⟩ := Cmp.dec_val fv h10 (.struct a.args) i hi hw ht
    have hs := Dec.skip msd _ fuel msd (by rw [Val.norm_size]; exact hfu) hd
    rw [Val.norm_type] at hs
    refine ⟨i', ?_⟩
    rw [show cExceptionReply a.name a.seqId (ascii "Unknown function " ++ a.name) 1 = _ from
      (cException_bytes (code := UNKNOWN_METHOD) (by rw [List.length_append, h17]; omega)).symm]
    exact E.serves_other (ip := compact fv) (op := compact fv) (h := h) (S := S) (L := L) (mem := mem) (msd := msd)
      (Cmp.reads_header fv a.name (by omega) a.type a.seqId hp.type i h10) hf'
      (E.serves_unknown hs (Cmp.runs_end fv i')
        (E.compact_exception fv a.name (by omega) _
          (by simp only [newTApplicationException, List.length_append, h17]; omega) a.seqId o ho))
  · have hname := Service.find_name hm
    have hn : m.name.length < 2 ^ 31 := by have := hp.name; rw [hname]; omega
    have hm' : sv.find m.name = some m := by rw [hname]; exact hm
    obtain ⟨N, hN⟩ := ha
    have hread := fun i => Cmp.reads_header fv m.name hn a.type a.seqId hp.type i h10
    rcases hh : sv.handle m h as with ⟨⟨r, _ | e⟩, h'⟩
    · left
      cases hone : m.oneway with
      | false =>
        rw [if_neg (by rw [hone]; decide)] at hr
        obtain ⟨hd, hr⟩ := hr
        obtain ⟨f1, f2, f3, f4⟩ := hr h r h' hh
        obtain ⟨gs, M, r', g1, g2, g3, g4, g5, g6⟩ := compact_result (L := L) (mem := mem) hS hc f1 f3 hd f2 (f4 trivial)
        refine ⟨_, h', max N M, fun ht => .reply hm hone ⟨N, hN⟩ hh (gs := gs) ⟨g2, r', ⟨gs.size, fun fuel hfu i hi => ?_⟩, g5⟩ ht,
          fun fuel hfu i hi => ?_⟩
        · obtain ⟨i', hi', k⟩ := Cmp.reads_object (msd := msd) fv h10 hS i hi (hS _) g2 g6 g3 g4
          exact ⟨i', hi', k fuel hfu⟩
        · obtain ⟨i', hi', k⟩ := hN fuel (by omega) i hi
          refine ⟨i', hi', ?_⟩
          rw [CAsk.bytes, ← hname]
          exact E.serves_known (op := compact fv) (hread i) hm'
            (E.serves_reply k (Cmp.runs_end fv i') hh
              (by rw [hone]; exact E.compact_reply fv hn a.seqId o ho (g1 fuel (by omega)) g2))
      | true =>
        rw [if_pos hone] at hr
        refine ⟨_, h', N, fun ht => .oneway hm hone ⟨N, hN⟩ hh ht, fun fuel hfu i hi => ?_⟩
        obtain ⟨i', hi', k⟩ := hN fuel (by omega) i hi
        refine ⟨i', hi', ?_⟩
        rw [CAsk.bytes, ← hname]
        refine E.serves_known (op := compact fv) (hread i) hm' (E.serves_reply k (Cmp.runs_end fv i') hh ?_)
        rw [hone]
        refine E.compact_reply (fs := .nil) fv hn a.seqId o ho ?_ trivial
        simp only [StructDef.sorted, StructDef.fresh, hr]
        rfl
    · have h26 : (ascii "Internal error processing ").length = 26 := by decide
      refine .inr ⟨_, h', N, e, fun asks => .failed hm ⟨N, hN⟩ hh, fun fuel hfu i hi => ?_⟩
      obtain ⟨i', hi', k⟩ := hN fuel (by omega) i hi
      refine ⟨i', ?_⟩
      rw [show cExceptionReply a.name a.seqId (ascii "Internal error processing " ++ a.name ++ ascii ": " ++ e.msg) 6 = _ from
        (cException_bytes (code := INTERNAL_ERROR) (by simp only [List.length_append, h26]; omega)).symm, CAsk.bytes, ← hname]
      exact E.serves_known (op := compact fv) (hread i) hm'
        (E.serves_failure k (Cmp.runs_end fv i') hh
          (E.compact_exception fv m.name hn (internalError m.name e) (internal_length (he h r e h' hh)) a.seqId o ho))

/-- At the end of the input. -/
theorem Endpoint.no_more_compact (E : Endpoint T inn out buf) (i : Cmp) (h : η) : ∃ e, ∀ fuel t, inn t = [] → ∃ t',
    (process (compact fv) (compact fv) S L mem msd fuel sv).run T ⟨i, o, h⟩ t = (.ok ((false, some e), ⟨i, o, h⟩), t') ∧ inn t' = [] ∧
      out t' ++ buf t' = out t ++ buf t := by
  obtain ⟨x, e, hx⟩ := Cmp.header_missing fv i
  refine ⟨e, fun fuel t ht => ?_⟩
  obtain ⟨t', h1, h2⟩ := E.faithful.simulateP (compact fv).readMessageBegin i t
  rw [ht, hx] at h1 h2
  simp only [Prod.mk.injEq] at h2
  refine ⟨t', ?_, h2.1.symm, h2.2.symm⟩
  unfold process
  rw [P.run_bind, P.run_input, h1]
  rfl

/-- A whole connection. -/
theorem Endpoint.cTalk (E : Endpoint T inn out buf) (hS : S.Ok) (hc : S.Compactable) (h10 : 10 ≤ fv) (ho : o.booleanField = none) :
    ∀ (asks : List CAsk) (h : η), (∀ a ∈ asks, a.Proper ∧ a.Fit fv S L mem msd sv True) →
    ∃ replies left h' N, CTalk fv S L mem msd sv h asks replies left h' ∧ ∀ fuel, N ≤ fuel → ∀ stopped rounds k (i : Cmp) t,
      i.boolValueIsNotNull = false → asks.length < rounds → inn t = (asks.map CAsk.bytes).flatten → ∃ i' t',
      (requestLoop (process (compact fv) (compact fv) S L mem msd fuel sv) stopped rounds k).run T ⟨i, o, h⟩ t = (.ok ((), ⟨i', o, h'⟩), t') ∧
        inn t' = (left.map CAsk.bytes).flatten ∧ out t' ++ buf t' = out t ++ buf t ++ replies.flatten
  | [], h, _ => by
    refine ⟨[], [], h, 0, .done h, fun fuel _ stopped rounds k i t hi hr ht => ?_⟩
    obtain ⟨e, he⟩ := E.no_more_compact (S := S) (L := L) (mem := mem) (msd := msd) (sv := sv) (o := o) (fv := fv) i h
    obtain ⟨t', h1, h2, h3⟩ := he fuel t ht
    obtain ⟨n, rfl⟩ : ∃ n, rounds = n + 1 := ⟨rounds - 1, by simp at hr; omega⟩
    exact ⟨i, t', requestLoop_end h1, h2, by simpa using h3⟩
  | a :: asks, h, ha => by
    obtain ⟨hp, hf⟩ := ha a List.mem_cons_self
    rcases E.cAsk (o := o) hS hc h10 ho h a hp hf with ⟨reply, h', N, h1, h2⟩ | ⟨reply, h', N, e, h1, h2⟩
    · obtain ⟨replies, left, h'', M, g1, g2⟩ := E.cTalk hS hc h10 ho asks h' fun b hb => ha b (List.mem_cons_of_mem _ hb)
      refine ⟨reply :: replies, left, h'', max N M, h1 g1, fun fuel hfu stopped rounds k i t hi hr ht => ?_⟩
      obtain ⟨n, rfl⟩ : ∃ n, rounds = n + 1 := ⟨rounds - 1, by simp at hr; omega⟩
      obtain ⟨i₁, hi₁, hs⟩ := h2 fuel (by omega) i hi
      obtain ⟨t1, e1, i1, o1, b1⟩ := hs t _ ht
      obtain ⟨i₂, t2, e2, i2, o2⟩ := g2 fuel (by omega) stopped n (k + 1) i₁ t1 hi₁ (by simp at hr; omega) i1
      refine ⟨i₂, t2, by rw [requestLoop_go e1, e2], i2, ?_⟩
      rw [o2, o1, b1]; simp
    · refine ⟨[reply], asks, h', N, h1 asks, fun fuel hfu stopped rounds k i t hi hr ht => ?_⟩
      obtain ⟨n, rfl⟩ : ∃ n, rounds = n + 1 := ⟨rounds - 1, by simp at hr; omega⟩
      obtain ⟨i₁, hs⟩ := h2 fuel (by omega) i hi
      obtain ⟨t1, e1, i1, o1, b1⟩ := hs t _ ht
      exact ⟨i₁, t1, requestLoop_end e1, i1, by rw [o1, b1]; simp⟩

end
end Thrift
