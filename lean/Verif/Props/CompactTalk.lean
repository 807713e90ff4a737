import Verif.Lemmas.CompactTalk
import Verif.Props.RequestLoop
import Verif.Props.CompactService
/-!
# C209: requests on one connection over the compact protocol
-/

namespace Thrift

/-- C209 for some results, methods and errors of the handler.  The requests that
arrive on a connection are answered one by one and in order, up to the last of them. -/
def C209_for (kept known : Prop) (errors : GoErr → Prop) : Prop :=
  ∀ {σ η : Type} {T : Transport σ} {inn out buf : σ → Bytes} {S : Schema} (L : FloatLib) (mem : List Nat → Nat) (msd : Int)
    {sv : Service η} (fv : Nat), Endpoint T inn out buf → S.Ok → S.Compactable → 10 ≤ fv → ∀ (asks : List CAsk) (h : η),
    (∀ a ∈ asks, a.Proper ∧ a.Fit fv S L mem msd sv kept) → (known → ∀ a ∈ asks, ∃ m ∈ sv.methods, m.name = a.name) →
    (∀ m h as, errors (sv.handle m h as).1.2) →
    ∃ replies h' N, CTalk fv S L mem msd sv h asks replies [] h' ∧ replies.length = asks.length ∧
      ∀ fuel, N ≤ fuel → ∀ stopped t, inn t = (asks.map CAsk.bytes).flatten → ∃ i' t',
      (requestLoop (process (compact fv) (compact fv) S L mem msd fuel sv) stopped (asks.length + 1) 0).run T ⟨Cmp.new, Cmp.new, h⟩ t =
        (.ok ((), ⟨i', Cmp.new, h'⟩), t') ∧ inn t' = [] ∧ out t' ++ buf t' = out t ++ buf t ++ replies.flatten

def C209_statement : Prop := C209_for False False (fun _ => True)

/-- A request to add 5. -/
def addCAsk (q : I32) : CAsk := ⟨ascii "add", CALL, q, .cons 1 (.i32 5) .nil⟩

theorem sumSchema_compactable : sumSchema.Compactable := fun k m hm => by
  simp only [sumSchema] at hm
  split at hm
  · obtain rfl := List.mem_singleton.1 hm; exact ⟨trivial, trivial⟩
  · split at hm
    · obtain rfl := List.mem_singleton.1 hm; exact ⟨trivial, trivial⟩
    · cases hm

theorem add_cUnderstood : CUnderstood 10 sumSchema noFloats (fun _ => 0) 64 (sumSchema.structs 0) (.cons 1 (.i32 5) .nil) [(1, .int32 5)] := by
  refine ⟨10, fun fuel hf i hi => ?_⟩
  obtain ⟨i', hi', k⟩ := Cmp.reads_object (L := noFloats) (mem := fun _ => 0) (msd := 64) (S := sumSchema) (path := []) 10 (by decide) sumSchema_ok i hi
    (sumSchema_ok 0) (fs := .cons 1 (.i32 5) .nil) ⟨trivial, trivial⟩ ⟨by simp [Val.Tame, Fields.Tame, Fields.startsShort], rfl⟩
    ⟨by intro m hm _; rw [List.mem_singleton.1 hm]; trivial, by decide, trivial⟩ rfl
  exact ⟨i', hi', k fuel (Nat.le_trans (by decide) hf)⟩

theorem addCAsk_proper (q : I32) : (addCAsk q).Proper := ⟨show (ascii "add").length + 17 < 2 ^ 31 by decide, show CALL.toNat < 4 by decide⟩

theorem addCAsk_fit (q : I32) (kept : Prop) : (addCAsk q).Fit 10 sumSchema noFloats (fun _ => 0) 64 sumService kept := by
  refine .inr ⟨addMethod, _, rfl, add_cUnderstood, ?_, fun h r e h' hh => by simp [sumService] at hh⟩
  rw [if_neg (by decide)]
  refine ⟨sum_resultDef, fun h r h' hh => ?_⟩
  obtain ⟨f1, f2⟩ := (add_sound 5).fine h _ r h' hh
  refine ⟨f1, f2, ?_, fun _ x hx v hv => ?_⟩
  · simp only [sumService, addMethod, Bool.false_eq_true, if_false, Prod.mk.injEq, and_true] at hh
    rw [← hh.1]
    refine Typed.struct 1 0 _ rfl fun m hm _ => ?_
    obtain rfl := List.mem_singleton.1 hm; exact Typed.i32 _
  · obtain rfl := List.mem_singleton.1 hx
    obtain ⟨a, b, -, d⟩ := hv.simple trivial
    exact ⟨d, a, b⟩

theorem addCAsk_fails (q : I32) (kept : Prop) : (addCAsk q).Fit 10 sumSchema noFloats (fun _ => 0) 64 failService kept := by
  refine .inr ⟨addMethod, _, rfl, add_cUnderstood, ?_, fun h r e h' hh => ?_⟩
  · rw [if_neg (by decide)]
    exact ⟨sum_resultDef, fun h r h' hh => by simp [failService] at hh⟩
  · simp only [failService, Prod.mk.injEq, Option.some.injEq] at hh
    rw [← hh.1.2]; decide

theorem CAsk.Fit.weaken {f : Nat} {S : Schema} {L : FloatLib} {mem : List Nat → Nat} {msd : Int} {η : Type} {sv : Service η} {a : CAsk}
    {kept : Prop} (h : a.Fit f S L mem msd sv kept) : a.Fit f S L mem msd sv False := by
  rcases h with h | ⟨m, as, h1, h2, h3, h4⟩
  · exact .inl h
  · refine .inr ⟨m, as, h1, h2, ?_, h4⟩
    split
    · rename_i ho
      rwa [if_pos ho] at h3
    · rename_i ho
      rw [if_neg ho] at h3
      exact ⟨h3.1, fun h r h' hh => ⟨(h3.2 h r h' hh).1, (h3.2 h r h' hh).2.1, (h3.2 h r h' hh).2.2.1, fun h => h.elim⟩⟩

theorem CTalk.count {f : Nat} {S : Schema} {L : FloatLib} {mem : List Nat → Nat} {msd : Int} {η : Type} {sv : Service η} {h h' : η}
    {asks left : List CAsk} {replies : List Bytes} (t : CTalk f S L mem msd sv h asks replies left h') :
    replies.length + left.length = asks.length := by
  induction t with
  | done => rfl
  | reply _ _ _ _ _ _ ih => simp only [List.length_cons]; omega
  | oneway _ _ _ _ _ ih => simp only [List.length_cons]; omega
  | failed => simp only [List.length_cons, List.length_nil]; omega
  | unknown => simp only [List.length_cons, List.length_nil]; omega

/-- After an error of the handler the requests behind it are not even read. -/
theorem C209_error_violated : ¬ C209_for True True (fun _ => True) := by
  intro h
  obtain ⟨replies, h', N, -, -, h1⟩ := h (S := sumSchema) (sv := failService) noFloats (fun _ => 0) 64 10 pipe_server
    sumSchema_ok sumSchema_compactable (by decide) [addCAsk 1, addCAsk 2] ()
    (by
      intro a ha
      simp only [List.mem_cons, List.not_mem_nil, or_false] at ha
      rcases ha with rfl | rfl <;> exact ⟨addCAsk_proper _, addCAsk_fails _ _⟩)
    (by
      intro _ a ha
      simp only [List.mem_cons, List.not_mem_nil, or_false] at ha
      rcases ha with rfl | rfl <;> exact ⟨addMethod, List.mem_singleton.2 rfl, rfl⟩) (fun _ _ _ => trivial)
  obtain ⟨i', t', h2, h3, -⟩ := h1 (N + 10) (by omega) (fun _ => false) (([addCAsk 1, addCAsk 2].map CAsk.bytes).flatten, []) rfl
  have h4 : loopEnd ((requestLoop (process (compact 10) (compact 10) sumSchema noFloats (fun _ => 0) 64 (N + 10) failService) (fun _ => false) 3 0).run
      pipeServer ⟨Cmp.new, Cmp.new, ()⟩ (([addCAsk 1, addCAsk 2].map CAsk.bytes).flatten, [])) = some (addCAsk 2).bytes := by kernel_rfl
  rw [show ([addCAsk 1, addCAsk 2].length + 1) = 3 from rfl] at h2
  rw [h2] at h4
  simp only [loopEnd, Option.some.injEq] at h4
  rw [h4] at h3
  cases h3

/-- Nor are those behind a request for an unknown method. -/
theorem C209_unknown_violated : ¬ C209_for True False (· = none) := by
  intro h
  obtain ⟨replies, h', N, -, -, h1⟩ := h (S := sumSchema) (sv := sumService) noFloats (fun _ => 0) 64 10 pipe_server
    sumSchema_ok sumSchema_compactable (by decide) [⟨ascii "sub", CALL, 1, .nil⟩, addCAsk 2] 0
    (by
      intro a ha
      simp only [List.mem_cons, List.not_mem_nil, or_false] at ha
      rcases ha with rfl | rfl
      · exact ⟨⟨by decide, by decide⟩, .inl ⟨by decide, trivial, trivial⟩⟩
      · exact ⟨addCAsk_proper _, addCAsk_fit _ _⟩) (fun h => h.elim) (fun _ _ _ => rfl)
  obtain ⟨i', t', h2, h3, -⟩ := h1 (N + 10) (by omega) (fun _ => false) (([(⟨ascii "sub", CALL, 1, .nil⟩ : CAsk), addCAsk 2].map CAsk.bytes).flatten, []) rfl
  have h4 : loopEnd ((requestLoop (process (compact 10) (compact 10) sumSchema noFloats (fun _ => 0) 64 (N + 10) sumService) (fun _ => false) 3 0).run
      pipeServer ⟨Cmp.new, Cmp.new, 0⟩ (([(⟨ascii "sub", CALL, 1, .nil⟩ : CAsk), addCAsk 2].map CAsk.bytes).flatten, [])) =
      some (addCAsk 2).bytes := by kernel_rfl
  rw [show ([(⟨ascii "sub", CALL, 1, .nil⟩ : CAsk), addCAsk 2].length + 1) = 3 from rfl] at h2
  rw [h2] at h4
  simp only [loopEnd, Option.some.injEq] at h4
  rw [h4] at h3
  cases h3

/-- A request to negate `true`. -/
def notCAsk : CAsk := ⟨ascii "not", CALL, 1, .cons 1 (.bool true) .nil⟩

theorem not_cUnderstood : CUnderstood 10 notSchema noFloats (fun _ => 0) 64 (notSchema.structs 0) (.cons 1 (.bool true) .nil) [(1, .bool true)] := by
  refine ⟨10, fun fuel hf i hi => ?_⟩
  obtain ⟨i', hi', k⟩ := Cmp.reads_object (L := noFloats) (mem := fun _ => 0) (msd := 64) (S := notSchema) (path := []) 10 (by decide) notSchema_ok i hi
    (notSchema_ok 0) (fs := .cons 1 (.bool true) .nil) ⟨trivial, trivial⟩ ⟨by simp [Val.Tame, Fields.Tame, Fields.startsShort], rfl⟩
    ⟨by intro m hm _; rw [List.mem_singleton.1 hm]; trivial, by decide, trivial⟩ rfl
  exact ⟨i', hi', k fuel (Nat.le_trans (by decide) hf)⟩

theorem notCAsk_fit : notCAsk.Fit 10 notSchema noFloats (fun _ => 0) 64 notService False := by
  refine .inr ⟨notMethod, _, rfl, not_cUnderstood, ?_, fun h r e h' hh => by simp [notService] at hh⟩
  rw [if_neg (by decide)]
  refine ⟨(not_sound true).result, fun h r h' hh => ?_⟩
  obtain ⟨f1, f2⟩ := (not_sound true).fine h _ r h' hh
  refine ⟨f1, f2, ?_, fun h => h.elim⟩
  simp only [notService, Prod.mk.injEq, and_true] at hh
  rw [← hh]
  refine Typed.struct 1 0 _ rfl fun m hm _ => ?_
  obtain rfl := List.mem_singleton.1 hm; exact Typed.bool _

/-- What has been written to the connection. -/
def loopOut {π : Type} : Res (Unit × π) × (Bytes × Bytes) → Option Bytes
  | (.ok _, t) => some t.2
  | _ => none

/-- Whether a reader was content. -/
def readWell : Res ((Attrs × GoErr) × Cmp) × (Bytes × Bytes) → Bool
  | (.ok ((_, e), _), _) => e.isNone
  | _ => false

/-- A reply with `false` in it is sent but cannot be read. -/
theorem C209_result_violated : ¬ C209_for False True (· = none) := by
  intro h
  obtain ⟨replies, h', N, h0, -, h1⟩ := h (S := notSchema) (sv := notService) noFloats (fun _ => 0) 64 10 pipe_server
    notSchema_ok notSchema_compactable (by decide) [notCAsk] ()
    (by
      intro a ha
      obtain rfl := List.mem_singleton.1 ha
      exact ⟨⟨by decide, by decide⟩, notCAsk_fit⟩)
    (by
      intro _ a ha
      obtain rfl := List.mem_singleton.1 ha
      exact ⟨notMethod, List.mem_singleton.2 rfl, rfl⟩) (fun _ _ _ => rfl)
  obtain ⟨i', t', h2, -, h3⟩ := h1 (N + 10) (by omega) (fun _ => false) (([notCAsk].map CAsk.bytes).flatten, []) rfl
  have h4 : loopOut ((requestLoop (process (compact 10) (compact 10) notSchema noFloats (fun _ => 0) 64 (N + 10) notService) (fun _ => false) 2 0).run
      pipeServer ⟨Cmp.new, Cmp.new, ()⟩ (([notCAsk].map CAsk.bytes).flatten, [])) =
      some (CompactSpec.message notCAsk.name REPLY notCAsk.seqId ++ [2, 0, 0]) := by kernel_rfl
  rw [show ([notCAsk].length + 1) = 2 from rfl] at h2
  rw [h2] at h4
  simp only [loopOut, Option.some.injEq] at h4
  rw [h4] at h3
  simp only [List.append_nil, List.nil_append] at h3
  cases h0 with
  | reply known twoway args run carries rest =>
    rename_i m as r gs replies
    obtain rfl : replies = [] := by cases rest; rfl
    simp only [List.flatten_cons, List.flatten_nil, List.append_nil] at h3
    have h5 := List.append_cancel_left h3
    obtain rfl : m = notMethod := by
      have : notService.find notCAsk.name = some notMethod := rfl
      rw [this] at known
      exact (Option.some.inj known).symm
    obtain ⟨-, r', ⟨M, hM⟩, -⟩ := carries
    obtain ⟨i', -, k⟩ := hM (M + 10) (by omega) Cmp.new rfl
    have h6 := congrArg readWell (k [] [])
    rw [← h5] at h6
    have h7 : readWell ((genRead (compact 10) notSchema noFloats (fun _ => 0) 64 (M + 10) [] (notSchema.structs 1)).run duplex Cmp.new ([2, 0, 0] ++ [], [])) = false := by
      kernel_rfl
    rw [show notMethod.result = 1 from rfl, h7] at h6
    cases h6
  | oneway known one =>
    have : notService.find notCAsk.name = some notMethod := rfl
    rw [this] at known
    cases known
    cases one
  | failed known args run => cases run
  | unknown hu => exact hu notMethod (List.mem_singleton.2 rfl) rfl

theorem C209_violated : ¬ C209_statement := fun h =>
  C209_error_violated fun {_ _ _ _ _ _ _} L mem msd {_} fv E hS hc h10 asks x h1 _ h3 =>
    h L mem msd fv E hS hc h10 asks x (fun a ha => ⟨(h1 a ha).1, (h1 a ha).2.weaken⟩) (fun f => f.elim) h3

/-- C209 with the whole truth about errors: on a connection with any history the
requests are answered in order up to and including the first one that gets an
exception; what is behind that one stays unread. -/
theorem C209_until_error_partial {σ η : Type} {T : Transport σ} {inn out buf : σ → Bytes} {S : Schema} (L : FloatLib)
    (mem : List Nat → Nat) (msd : Int) {sv : Service η} (fv : Nat) (E : Endpoint T inn out buf) (hS : S.Ok) (hc : S.Compactable)
    (h10 : 10 ≤ fv) (asks : List CAsk) (h : η) (ha : ∀ a ∈ asks, a.Proper ∧ a.Fit fv S L mem msd sv True) (o : Cmp)
    (ho : o.booleanField = none) :
    ∃ replies left h' N, CTalk fv S L mem msd sv h asks replies left h' ∧ replies.length + left.length = asks.length ∧
      ∀ fuel, N ≤ fuel → ∀ stopped (i : Cmp) t, i.boolValueIsNotNull = false → inn t = (asks.map CAsk.bytes).flatten → ∃ i' t',
      (requestLoop (process (compact fv) (compact fv) S L mem msd fuel sv) stopped (asks.length + 1) 0).run T ⟨i, o, h⟩ t =
        (.ok ((), ⟨i', o, h'⟩), t') ∧ inn t' = (left.map CAsk.bytes).flatten ∧
        out t' ++ buf t' = out t ++ buf t ++ replies.flatten := by
  obtain ⟨replies, left, h', N, h1, h2⟩ := E.cTalk (L := L) (mem := mem) (msd := msd) (sv := sv) (o := o) hS hc h10 ho asks h ha
  exact ⟨replies, left, h', N, h1, h1.count, fun fuel hf stopped i t hi ht => h2 fuel hf stopped _ 0 i t hi (by omega) ht⟩

/-- C209 for results that the protocol can carry, known methods and handlers without
errors. -/
theorem C209_partial : C209_for True True (· = none) := by
  intro σ η T inn out buf S L mem msd sv fv E hS hc h10 asks h ha hk he
  obtain ⟨replies, left, h', N, h1, h2, h3⟩ := C209_until_error_partial L mem msd fv E hS hc h10 asks h ha Cmp.new rfl
  have : left = [] := by
    clear h3 h2 ha
    replace hk := hk trivial
    induction h1 with
    | done => rfl
    | reply _ _ _ _ _ _ ih => exact ih fun a ha => hk a (List.mem_cons_of_mem _ ha)
    | oneway _ _ _ _ _ ih => exact ih fun a ha => hk a (List.mem_cons_of_mem _ ha)
    | failed _ _ run =>
      have h6 := congrArg (fun x => x.1.2) run
      rw [show _ = none from he _ _ _] at h6
      cases h6
    | unknown hu =>
      obtain ⟨m, hm, hn⟩ := hk _ List.mem_cons_self
      exact absurd hn (hu m hm)
  subst this
  exact ⟨replies, h', N, h1, by simpa using h2, fun fuel hf stopped t ht => h3 fuel hf stopped Cmp.new t rfl ht⟩

/-- The hypotheses are met: two requests, the second of which sees the effect of the
first. -/
example := C209_partial (S := sumSchema) (sv := sumService) noFloats (fun _ => 0) 64 10 pipe_server
    sumSchema_ok sumSchema_compactable (by decide) [addCAsk 1, addCAsk 2] 0
    (by
      intro a ha
      simp only [List.mem_cons, List.not_mem_nil, or_false] at ha
      rcases ha with rfl | rfl <;> exact ⟨addCAsk_proper _, addCAsk_fit _ _⟩)
    (by
      intro _ a ha
      simp only [List.mem_cons, List.not_mem_nil, or_false] at ha
      rcases ha with rfl | rfl <;> exact ⟨addMethod, by simp [sumService], rfl⟩) (fun _ _ _ => rfl)

/-- A failing request between others. -/
example := C209_until_error_partial (S := sumSchema) (sv := failService) noFloats (fun _ => 0) 64 10 pipe_server
    sumSchema_ok sumSchema_compactable (by decide) [addCAsk 1, addCAsk 2] ()
    (by
      intro a ha
      simp only [List.mem_cons, List.not_mem_nil, or_false] at ha
      rcases ha with rfl | rfl <;> exact ⟨addCAsk_proper _, addCAsk_fails _ _⟩) Cmp.new rfl

end Thrift
