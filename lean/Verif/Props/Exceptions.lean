import Verif.Lemmas.AppException
import Verif.Spec.RoundTrip
/-!
# Exceptions
-/

namespace Thrift

/-! ## C49: application exceptions round trip -/

/-- Binary protocol. -/
theorem C49_binary (x : AppExc) (hx : x.message.length < 2 ^ 31) (msd : Int) (sw sr : Bin) (hr : sr.checkReadLength = false)
    (fuel : Nat) (hf : 3 ≤ fuel) : RoundTrips (appWrite binary x) sw (appRead binary msd fuel) sr (some x) := by
  have hw := x.tree_wf hx
  refine ⟨BinarySpec.encode (.struct x.tree), ?_, ?_⟩
  · exact ((Bin.emits_val (.struct x.tree) sw hw).sim (sim_app blind_binary x)).memory
  · have := Dec.app msd x.tree fuel (Nat.le_trans x.tree_size hf) (Bin.dec_val (.struct x.tree) sr hr hw)
    rw [x.collect_tree _ rfl] at this
    exact this.memory

example : RoundTrips (appWrite binary ⟨6, ascii "no"⟩) Bin.default (appRead binary 64 9) Bin.default (some ⟨6, ascii "no"⟩) :=
  C49_binary _ (by decide) _ _ _ rfl _ (by decide)

/-- Compact protocol.  Its reader object changes (C22); it stays usable in the
sense that no half-read boolean is pending and the last field id is what it was. -/
theorem C49_compact (x : AppExc) (hx : x.message.length < 2 ^ 31) (msd : Int) (sw sr : Cmp) (hw : sw.booleanField = none)
    (hr : sr.boolValueIsNotNull = false) (f fuel : Nat) (hv : 10 ≤ f) (hf : 3 ≤ fuel) :
    ∃ (bs : Bytes) (sr' : Cmp), sr'.boolValueIsNotNull = false ∧ sr'.lastFieldId = sr.lastFieldId ∧
      (∀ before, (appWrite (compact f) x).run memory sw before = (.ok (none, sw), before ++ bs)) ∧
      (∀ after, (appRead (compact f) msd fuel).run memory sr (bs ++ after) = (.ok ((some x, none), sr'), after)) := by
  have hwf := x.tree_wf hx
  obtain ⟨s', hd, hk, -⟩ := Cmp.dec_val f hv (.struct x.tree) sr hr hwf x.tree_tame
  refine ⟨CompactSpec.encode (.struct x.tree), s', hk.1, hk.2.2 ?_, ?_, ?_⟩
  · unfold AppExc.tree; split <;> simp [Val.structDepth, Fields.structDepth]
  · exact ((Cmp.emits_val f (.struct x.tree) sw hw hwf).sim (sim_app (blind_compact f) x)).memory
  · simp only [Val.norm] at hd
    rw [x.tree_norm] at hd
    have := Dec.app msd x.tree fuel (Nat.le_trans x.tree_size hf) hd
    rw [x.collect_tree _ rfl] at this
    exact this.memory

example : ∃ (bs : Bytes) (sr' : Cmp), sr'.boolValueIsNotNull = false ∧ sr'.lastFieldId = Cmp.new.lastFieldId ∧
    (∀ before, (appWrite (compact 10) ⟨1, []⟩).run memory Cmp.new before = (.ok (none, Cmp.new), before ++ bs)) ∧
    (∀ after, (appRead (compact 10) 64 3).run memory Cmp.new (bs ++ after) = (.ok ((some ⟨1, []⟩, none), sr'), after)) :=
  C49_compact _ (by decide) _ _ _ rfl rfl _ _ (by decide) (by decide)

theorem AppExc.collect_append (l : List (I16 × Val)) (x : AppExc)
    (h : ∀ e ∈ l, ¬ (e.1 = 1 ∧ e.2.type = TT.STRING) ∧ ¬ (e.1 = 2 ∧ e.2.type = TT.I32)) (m : List (I16 × Val)) :
    AppExc.collect (Fields.ofList (l ++ m)) x = AppExc.collect (Fields.ofList m) x := by
  induction l with
  | nil => rfl
  | cons e l ih =>
    obtain ⟨id, v⟩ := e
    have h1 := h (id, v) List.mem_cons_self
    have ih := ih fun e he => h e (List.mem_cons_of_mem _ he)
    simp only [List.cons_append, Fields.ofList]
    cases v with
    | str m => rw [AppExc.collect, if_neg (fun hi => h1.1 ⟨hi, rfl⟩), ih]
    | i32 m => rw [AppExc.collect, if_neg (fun hi => h1.2 ⟨hi, rfl⟩), ih]
    | _ => simpa [AppExc.collect] using ih

theorem Fields.ofList_wf (l : List (I16 × Val)) (h : ∀ e ∈ l, e.2.WF) : (Fields.ofList l).WF := by
  induction l with
  | nil => trivial
  | cons e l ih => exact ⟨h e List.mem_cons_self, ih fun e he => h e (List.mem_cons_of_mem _ he)⟩

/-- A reader ignores fields that it does not know and fields 1 and 2 of another
type: extra fields around the two known ones do not matter. -/
theorem C49_extra_fields (x : AppExc) (pre mid post : List (I16 × Val)) (msd : Int) (sr : Bin) (hr : sr.checkReadLength = false)
    (hm : x.message.length < 2 ^ 31)
    (hx : ∀ e ∈ pre ++ mid ++ post, e.2.WF ∧ ¬ (e.1 = 1 ∧ e.2.type = TT.STRING) ∧ ¬ (e.1 = 2 ∧ e.2.type = TT.I32)) :
    ∃ N, ∀ fuel, N ≤ fuel → ∀ after,
      (appRead binary msd fuel).run memory sr (BinarySpec.encode (.struct
        (Fields.ofList (pre ++ [(1, .str x.message)] ++ mid ++ [(2, .i32 x.type)] ++ post))) ++ after) =
        (.ok ((some x, none), sr), after) := by
  refine ⟨(Fields.ofList (pre ++ [(1, .str x.message)] ++ mid ++ [(2, .i32 x.type)] ++ post)).size, fun fuel hf after => ?_⟩
  have hwf : (Fields.ofList (pre ++ [(1, .str x.message)] ++ mid ++ [(2, .i32 x.type)] ++ post)).WF := by
    refine Fields.ofList_wf _ fun e he => ?_
    simp only [List.mem_append, List.mem_singleton] at he hx
    rcases he with (((he | rfl) | he) | rfl) | he
    · exact (hx e (.inl (.inl he))).1
    · exact hm
    · exact (hx e (.inl (.inr he))).1
    · trivial
    · exact (hx e (.inr he)).1
  have := Dec.app msd _ fuel hf (Bin.dec_val (.struct _) sr hr hwf)
  have hc : AppExc.collect (Fields.ofList (pre ++ [(1, .str x.message)] ++ mid ++ [(2, .i32 x.type)] ++ post)) ⟨0, []⟩ = x := by
    simp only [List.mem_append] at hx
    simp only [List.append_assoc]
    rw [AppExc.collect_append pre _ fun e he => (hx e (.inl (.inl he))).2]
    simp only [List.cons_append, List.nil_append, Fields.ofList, AppExc.collect, if_true]
    rw [AppExc.collect_append mid _ fun e he => (hx e (.inl (.inr he))).2]
    simp only [Fields.ofList, AppExc.collect, if_true]
    have := AppExc.collect_append post { type := x.type, message := x.message } (fun e he => (hx e (.inr he)).2) []
    simpa [Fields.ofList, AppExc.collect] using this
  rw [hc] at this
  exact this.memory after

example : ∃ N, ∀ fuel, N ≤ fuel → ∀ after,
    (appRead binary 64 fuel).run memory Bin.default (BinarySpec.encode (.struct
      (Fields.ofList ([(1, .bool true)] ++ [(1, .str (ascii "m"))] ++ [(7, .list 8 (.cons (.i32 3) .nil))] ++ [(2, .i32 5)] ++ []))) ++
      after) = (.ok ((some ⟨5, ascii "m"⟩, none), Bin.default), after) :=
  C49_extra_fields ⟨5, ascii "m"⟩ [(1, .bool true)] [(7, .list 8 (.cons (.i32 3) .nil))] [] 64 _ rfl (by decide) (by
    intro e he
    simp only [List.append_nil, List.cons_append, List.nil_append, List.mem_cons, List.not_mem_nil, or_false] at he
    rcases he with rfl | rfl
    · exact ⟨trivial, by decide, by decide⟩
    · exact ⟨⟨by decide, by decide, rfl, trivial, trivial⟩, by decide, by decide⟩)

/-! ## C50: error wrapping -/

/-- The wrappers that protocols, transports and generated code put around errors. -/
inductive Wrapper : (Err → Err) → Prop
  | readField (f s) : Wrapper (excReadField f s)
  | writeField (f s) : Wrapper (excWriteField f s)
  | readStruct (s) : Wrapper (excReadStruct s)
  | writeStruct (s) : Wrapper (excWriteStruct s)

/-- The protocol codes that say nothing specific. -/
def Unspecific (c : Int) : Prop := c = UNKNOWN_PROTOCOL_EXCEPTION ∨ c = INVALID_DATA

/-- The parts of C50 that are about keeping the error: nil stays nil, an error
stays an error with its text, specific codes stay, end-of-file is recognised. -/
structure KeepsErrors : Prop where
  nil_transport : transportFromOsError none = none
  nil_protocol : protocolFromOsError none = none
  transport : ∀ e, ∃ e', transportFromOsError (some e) = some e' ∧ e'.msg = e.msg ∧ e'.hasTypeId = true ∧
    (e.hasTypeId = true → e' = e)
  protocol : ∀ e, ∃ e', protocolFromOsError (some e) = some e' ∧ e'.msg = e.msg ∧ e'.hasTypeId = true ∧
    (e.hasTypeId = true → e' = e)
  eof : ∀ e, e.kind = .eof → ∃ e', transportFromOsError (some e) = some e' ∧ e'.kind = .transport ∧ e'.code = END_OF_FILE
  wrap_kind : ∀ w, Wrapper w → ∀ e, (w e).kind = .protocol ∧ ∃ pre, (w e).msg = pre ++ e.msg
  wrap_known : ∀ w, Wrapper w → ∀ e, e.code ≠ UNKNOWN_PROTOCOL_EXCEPTION → (w e).code = e.code
  wrap_unknown : ∀ w, Wrapper w → ∀ e, e.code = UNKNOWN_PROTOCOL_EXCEPTION → (w e).code = INVALID_DATA

/-- A failure of the transport does not get a protocol code that means something
else, neither when the protocol hands it on nor when generated code wraps it. -/
def TransportMeaning : Prop :=
  (∀ e e', e.kind = .transport → protocolFromOsError (some e) = some e' → e'.kind = .protocol → Unspecific e'.code) ∧
  ∀ w, Wrapper w → ∀ e, e.kind = .transport → Unspecific (w e).code

/-- C50. -/
def C50_statement : Prop := KeepsErrors ∧ TransportMeaning

/-- An end of file reported by a transport becomes BAD_VERSION in generated code. -/
theorem C50_violated : ¬ C50_statement := by
  intro h
  have := h.2.2 _ (.readField (ascii "a") (ascii "S")) (newTTransportException END_OF_FILE (ascii "EOF")) rfl
  rcases this with h | h <;> exact absurd h (by decide)

/-- C50 without the last clause of `TransportMeaning`. -/
theorem C50_partial : KeepsErrors ∧
    ∀ e e', e.kind = .transport → protocolFromOsError (some e) = some e' → e'.kind = .protocol → Unspecific e'.code := by
  refine ⟨?_, ?_⟩
  · constructor
    · rfl
    · rfl
    · intro e
      by_cases h : e.hasTypeId = true
      · exact ⟨e, by simp [transportFromOsError, h], rfl, h, fun _ => rfl⟩
      · by_cases he : e.kind = .eof
        · exact ⟨newTTransportException END_OF_FILE e.msg, by simp [transportFromOsError, h, he], rfl, rfl, fun hc => absurd hc h⟩
        · exact ⟨newTTransportException UNKNOWN_TRANSPORT_EXCEPTION e.msg, by simp [transportFromOsError, h, he], rfl, rfl, fun hc => absurd hc h⟩
    · intro e
      by_cases h : e.hasTypeId = true
      · exact ⟨e, by simp [protocolFromOsError, h], rfl, h, fun _ => rfl⟩
      · exact ⟨newTProtocolException UNKNOWN_PROTOCOL_EXCEPTION e.msg, by simp [protocolFromOsError, h], rfl, rfl, fun hc => absurd hc h⟩
    · intro e he
      have h : e.hasTypeId = false := by simp [Err.hasTypeId, he]
      exact ⟨newTTransportException END_OF_FILE e.msg, by simp [transportFromOsError, h, he], rfl, rfl⟩
    · intro w hw e
      cases hw <;> exact ⟨rfl, _, rfl⟩
    · intro w hw e he
      cases hw <;> exact if_neg he
    · intro w hw e he
      cases hw <;> exact if_pos he
  · intro e e' he h hk
    have : e.hasTypeId = true := by simp [Err.hasTypeId, he]
    simp only [protocolFromOsError, this, if_true, Option.some.injEq] at h
    subst h
    rw [he] at hk
    cases hk

/-- What happens to the codes of transports exactly: the wrapped error carries the
transport's number as a protocol code, only 0 becomes INVALID_DATA. -/
theorem C50_transport_codes_partial (w : Err → Err) (hw : Wrapper w) (e : Err) :
    (w e).code = (if e.code = 0 then INVALID_DATA else e.code) ∧
    (Unspecific (w e).code ↔ e.code = UNKNOWN_TRANSPORT_EXCEPTION ∨ e.code = NOT_OPEN) := by
  have h : (w e).code = (if e.code = 0 then INVALID_DATA else e.code) := by cases hw <;> rfl
  refine ⟨h, ?_⟩
  rw [h]
  by_cases h0 : e.code = 0
  · simp [h0, Unspecific, UNKNOWN_TRANSPORT_EXCEPTION, INVALID_DATA]
  · simp [h0, Unspecific, UNKNOWN_PROTOCOL_EXCEPTION, UNKNOWN_TRANSPORT_EXCEPTION, NOT_OPEN, INVALID_DATA]

example : (excWriteStruct (ascii "S") (newTTransportException TIMED_OUT [])).code = SIZE_LIMIT :=
  (C50_transport_codes_partial _ (.writeStruct _) _).1

end Thrift
