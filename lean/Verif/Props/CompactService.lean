import Verif.Lemmas.CompactService
import Verif.Props.Service
import Verif.Props.GeneratedCompact
/-!
# C123: calls over the compact protocol
-/

namespace Thrift

/-- C123.  A client and a server that use the compact protocol over transports that
work: any sequence of calls of methods with a reply returns what the handler returned.
(Oneway methods and errors of the handler are the subject of C58.) -/
def C123_statement : Prop :=
  ∀ {σ η : Type} {C V : Transport σ} {up down cbuf vbuf : σ → Bytes} {S : Schema} (L : FloatLib) (mem : List Nat → Nat) (msd : Int)
    {sv : Service η} (fv : Nat), Link C V up down cbuf vbuf → S.Ok → S.Compactable → 10 ≤ fv → ∀ (cs : List (Method × Attrs)) (h : η),
    (∀ c ∈ cs, Sound S sv c.1 c.2 ∧ c.1.oneway = false ∧ Typed S (.struct c.1.args) ((S.structs c.1.args).object 0 c.2)) →
    (∀ m h as, (sv.handle m h as).1.2 = none) →
    ∃ rs N, Answered S sv h cs rs ∧ ∀ fuel, N ≤ fuel → ∀ t, Settled up down cbuf vbuf t → ∃ c' x,
      (callAll (Client.call (compact fv) S L mem msd fuel) cs).run (served C V (process (compact fv) (compact fv) S L mem msd fuel sv))
        (Client.ofFactory Cmp.new) (some ⟨Cmp.new, Cmp.new, h⟩, t) = (.ok (rs, c'), x)

/-! ## Booleans -/

/-- A method with a boolean argument and a boolean result. -/
def notSchema : Schema where
  structs k := if k = 0 then ⟨ascii "args", [⟨ascii "b", 1, .bool, false, none, 0, true⟩]⟩
    else ⟨ascii "result", [⟨ascii "success", 0, .bool, false, none, 0, true⟩]⟩
  enumText _ _ := []

theorem notSchema_ok : notSchema.Ok := by
  intro k
  simp only [notSchema]
  split <;> exact singleton_ok rfl (by decide) (by decide)

theorem notSchema_compactable : notSchema.Compactable := by
  intro k m hm
  simp only [notSchema] at hm
  split at hm <;> obtain rfl := List.mem_singleton.1 hm <;> exact ⟨trivial, trivial⟩

def notMethod : Method := ⟨ascii "not", 0, 1, false⟩

/-- The handler returns the negation. -/
def notService : Service Unit where
  methods := [notMethod]
  handle _ h as := (([(0, .bool (match attributeOf as 1 with | .bool b => !b | _ => true))], none), h)

theorem not_args (b : Bool) : Fine notSchema (.struct 0) ((notSchema.structs 0).object 0 [(1, .bool b)]) := by
  refine Fine.struct 0 0 _ rfl ?_ ?_ ?_ <;> intro m hm <;> obtain rfl := List.mem_singleton.1 hm
  · exact nofun
  · exact nofun
  · exact fun _ => Fine.bool b

theorem not_typed (b : Bool) : Typed notSchema (.struct 0) ((notSchema.structs 0).object 0 [(1, .bool b)]) := by
  refine Typed.struct 0 0 _ rfl fun m hm _ => ?_
  obtain rfl := List.mem_singleton.1 hm
  exact Typed.bool b

theorem not_result (b : Bool) : Fine notSchema (.struct 1) ((notSchema.structs 1).object 0 [(0, .bool b)]) := by
  refine Fine.struct 1 0 _ rfl ?_ ?_ ?_ <;> intro m hm <;> obtain rfl := List.mem_singleton.1 hm
  · exact nofun
  · exact nofun
  · exact fun _ => Fine.bool b

theorem not_sound (b : Bool) : Sound notSchema notService notMethod [(1, .bool b)] where
  known := rfl
  name := by decide
  args := not_args b
  result := ⟨fun m hm => by rw [List.mem_singleton.1 hm], fun m hm h => by rw [List.mem_singleton.1 hm] at h; exact absurd rfl h⟩
  fine h as r h' hh := by
    simp only [notService, Prod.mk.injEq, and_true] at hh
    rw [← hh]
    refine ⟨not_result _, fun a ha b hb h => ?_⟩
    rw [List.mem_singleton.1 ha, List.mem_singleton.1 hb] at h
    exact absurd rfl h
  message h as r e h' hh := by simp [notService] at hh

theorem not_fails (b : Bool)
    (h : ∀ N, (callResults ((callAll (Client.call (compact 10) notSchema noFloats (fun _ => 0) 64 (N + 10)) [(notMethod, [(1, .bool b)])]).run
      (served pipeClient pipeServer (process (compact 10) (compact 10) notSchema noFloats (fun _ => 0) 64 (N + 10) notService))
      (Client.ofFactory Cmp.new) (some ⟨Cmp.new, Cmp.new, ()⟩, ([], [])))).map (List.map fun r => r.2.isSome) = some [true]) : ¬ C123_statement := by
  intro h'
  obtain ⟨rs, N, h1, h2⟩ := h' (sv := notService) noFloats (fun _ => 0) 64 10 pipe_link notSchema_ok notSchema_compactable (by decide)
    [(notMethod, [(1, .bool b)])] ()
    (by intro c hc; obtain rfl := List.mem_singleton.1 hc; exact ⟨not_sound b, rfl, not_typed b⟩) (fun _ _ _ => rfl)
  obtain ⟨c', x, h3⟩ := h2 (N + 10) (by omega) ([], []) ⟨rfl, rfl, rfl, rfl⟩
  have h4 := h N
  rw [h3] at h4
  cases h1 with
  | cons a r ret rest =>
    simp only [notService, Prod.mk.injEq] at r
    obtain ⟨⟨-, rfl⟩, -⟩ := r
    obtain ⟨r', h5, -⟩ := ret
    subst h5
    simp [callResults] at h4

/-- An argument that is `false` does not arrive; the caller gets an exception. -/
theorem C123_argument_violated : ¬ C123_statement :=
  not_fails false fun N => by kernel_rfl

/-- A `false` that the handler returns does not arrive. -/
theorem C123_result_violated : ¬ C123_statement :=
  not_fails true fun N => by kernel_rfl

/-! ## Nested structs -/

/-- A method whose arguments are a struct with a struct in it, and a number. -/
def innerSchema : Schema where
  structs
    | 0 => ⟨ascii "args", [⟨ascii "b", 3, .struct 1, false, none, 0, true⟩, ⟨ascii "x", 4, .i32, false, none, 0, true⟩]⟩
    | 1 => ⟨ascii "B", [⟨ascii "c", 1, .struct 2, false, none, 0, true⟩]⟩
    | 2 => ⟨ascii "C", [⟨ascii "i", 1, .i32, false, none, 0, true⟩]⟩
    | _ => ⟨ascii "result", [⟨ascii "success", 0, .i32, false, none, 0, true⟩]⟩
  enumText _ _ := []

theorem innerSchema_ok : innerSchema.Ok := by
  intro k
  match k with
  | 0 => exact ⟨by simp [innerSchema], by simp [innerSchema]; decide, by simp [innerSchema], by simp [innerSchema]; decide⟩
  | 1 => exact singleton_ok rfl (by decide) (by decide)
  | 2 => exact singleton_ok rfl (by decide) (by decide)
  | _ + 3 => exact singleton_ok rfl (by decide) (by decide)

theorem innerSchema_compactable : innerSchema.Compactable := by
  intro k m hm
  match k with
  | 0 =>
    simp only [innerSchema, List.mem_cons, List.not_mem_nil, or_false] at hm
    rcases hm with rfl | rfl <;> exact ⟨trivial, trivial⟩
  | 1 => obtain rfl := List.mem_singleton.1 hm; exact ⟨trivial, trivial⟩
  | 2 => obtain rfl := List.mem_singleton.1 hm; exact ⟨trivial, trivial⟩
  | _ + 3 => obtain rfl := List.mem_singleton.1 hm; exact ⟨trivial, trivial⟩

def innerMethod : Method := ⟨ascii "x", 0, 3, false⟩

/-- The handler returns the number. -/
def innerService : Service Unit where
  methods := [innerMethod]
  handle _ h as := (([(0, .int32 (match attributeOf as 4 with | .int32 x => x | _ => 0))], none), h)

def innerAttrs : Attrs := [(3, (innerSchema.structs 1).object 1 [(1, (innerSchema.structs 2).object 2 [(1, .int32 7)])]), (4, .int32 9)]

theorem inner_fine : Fine innerSchema (.struct 0) ((innerSchema.structs 0).object 0 innerAttrs) := by
  refine Fine.struct 0 0 _ rfl ?_ ?_ ?_ <;> intro m hm <;> simp only [innerSchema, List.mem_cons, List.not_mem_nil, or_false] at hm
  · rcases hm with rfl | rfl <;> exact nofun
  · rcases hm with rfl | rfl <;> exact nofun
  · rcases hm with rfl | rfl <;> intro _
    · refine Fine.struct (S := innerSchema) 1 1 _ rfl ?_ ?_ ?_ <;> intro m hm <;> obtain rfl := List.mem_singleton.1 hm
      · exact nofun
      · exact nofun
      · intro _
        refine Fine.struct (S := innerSchema) 2 2 _ rfl ?_ ?_ ?_ <;> intro m hm <;> obtain rfl := List.mem_singleton.1 hm
        · exact nofun
        · exact nofun
        · exact fun _ => Fine.i32 7
    · exact Fine.i32 9

theorem inner_typed : Typed innerSchema (.struct 0) ((innerSchema.structs 0).object 0 innerAttrs) := by
  refine Typed.struct 0 0 _ rfl fun m hm _ => ?_
  simp only [innerSchema, List.mem_cons, List.not_mem_nil, or_false] at hm
  rcases hm with rfl | rfl
  · refine Typed.struct (S := innerSchema) 1 1 _ rfl fun m hm _ => ?_
    obtain rfl := List.mem_singleton.1 hm
    refine Typed.struct (S := innerSchema) 2 2 _ rfl fun m hm _ => ?_
    obtain rfl := List.mem_singleton.1 hm
    exact Typed.i32 7
  · exact Typed.i32 9

theorem inner_sound : Sound innerSchema innerService innerMethod innerAttrs where
  known := rfl
  name := by decide
  args := inner_fine
  result := ⟨fun m hm => by rw [List.mem_singleton.1 hm], fun m hm h => by rw [List.mem_singleton.1 hm] at h; exact absurd rfl h⟩
  fine h as r h' hh := by
    simp only [innerService, Prod.mk.injEq, and_true] at hh
    rw [← hh]
    refine ⟨?_, fun a ha b hb h => ?_⟩
    · refine Fine.struct (S := innerSchema) 3 0 _ rfl ?_ ?_ ?_ <;> intro m hm <;> obtain rfl := List.mem_singleton.1 hm
      · exact nofun
      · exact nofun
      · exact fun _ => Fine.i32 _
    · rw [List.mem_singleton.1 ha, List.mem_singleton.1 hb] at h
      exact absurd rfl h
  message h as r e h' hh := by simp [innerService] at hh

/-- An argument after a struct with a struct in it does not arrive, and nobody is told:
the handler gets 0 instead of 9. -/
theorem C123_nested_violated : ¬ C123_statement := by
  intro h'
  obtain ⟨rs, N, h1, h2⟩ := h' (sv := innerService) noFloats (fun _ => 0) 64 10 pipe_link innerSchema_ok innerSchema_compactable (by decide)
    [(innerMethod, innerAttrs)] ()
    (by intro c hc; obtain rfl := List.mem_singleton.1 hc; exact ⟨inner_sound, rfl, inner_typed⟩) (fun _ _ _ => rfl)
  obtain ⟨c', x, h3⟩ := h2 (N + 10) (by omega) ([], []) ⟨rfl, rfl, rfl, rfl⟩
  have h4 : callResults ((callAll (Client.call (compact 10) innerSchema noFloats (fun _ => 0) 64 (N + 10)) [(innerMethod, innerAttrs)]).run
      (served pipeClient pipeServer (process (compact 10) (compact 10) innerSchema noFloats (fun _ => 0) 64 (N + 10) innerService))
      (Client.ofFactory Cmp.new) (some ⟨Cmp.new, Cmp.new, ()⟩, ([], []))) = some [(some [(0, .int32 0)], none)] := by kernel_rfl
  rw [h3] at h4
  cases h4
  cases h1 with
  | cons a r ret rest =>
    have h5 : Same (.int32 9) _ := a.attr 4
    simp only [innerService, Prod.mk.injEq] at r
    generalize attributeOf _ 4 = d at h5 r
    cases h5
    obtain ⟨⟨rfl, rfl⟩, -⟩ := r
    obtain ⟨r', h6, h7⟩ := ret
    cases h6
    have h8 : Same (.int32 9) (.int32 0) := h7.attr 0
    cases h8

theorem C123_violated : ¬ C123_statement := C123_argument_violated

/-! ## What holds -/

/-- Calls within what the compact protocol can carry, up to and including the first
error of the handler; client and server may have any history. -/
theorem C123_error_partial {σ η : Type} {C V : Transport σ} {up down cbuf vbuf : σ → Bytes} {S : Schema} (L : FloatLib)
    (mem : List Nat → Nat) (msd : Int) {sv : Service η} (fv : Nat) (K : Link C V up down cbuf vbuf) (hS : S.Ok) (hc : S.Compactable)
    (h10 : 10 ≤ fv) (cs : List (Method × Attrs)) (h : η) (h1 : ∀ c ∈ cs, CompactSound S sv c.1 c.2 ∧ c.1.oneway = false) :
    ∃ rs N, AnsweredUntilError S sv h cs rs ∧ ∀ fuel, N ≤ fuel → ∀ (n : I32) (j i o : Cmp) t, j.boolValueIsNotNull = false →
      i.boolValueIsNotNull = false → o.booleanField = none → Settled up down cbuf vbuf t → ∃ c' x,
      (callAll (Client.call (compact fv) S L mem msd fuel) cs).run (served C V (process (compact fv) (compact fv) S L mem msd fuel sv))
        { Client.ofFactory Cmp.new with input := some j, seqId := n } (some ⟨i, o, h⟩, t) = (.ok (rs, c'), x) :=
  compact_calls K hS hc h10 rfl cs h h1

/-- C123 for calls whose arguments and results are without `false` fields, short fields
after structs in structs, and empty maps. -/
theorem C123_partial {σ η : Type} {C V : Transport σ} {up down cbuf vbuf : σ → Bytes} {S : Schema} (L : FloatLib)
    (mem : List Nat → Nat) (msd : Int) {sv : Service η} (fv : Nat) (K : Link C V up down cbuf vbuf) (hS : S.Ok) (hc : S.Compactable)
    (h10 : 10 ≤ fv) (cs : List (Method × Attrs)) (h : η) (h1 : ∀ c ∈ cs, CompactSound S sv c.1 c.2 ∧ c.1.oneway = false)
    (h3 : ∀ m h as, (sv.handle m h as).1.2 = none) :
    ∃ rs N, Answered S sv h cs rs ∧ ∀ fuel, N ≤ fuel → ∀ t, Settled up down cbuf vbuf t → ∃ c' x,
      (callAll (Client.call (compact fv) S L mem msd fuel) cs).run (served C V (process (compact fv) (compact fv) S L mem msd fuel sv))
        (Client.ofFactory Cmp.new) (some ⟨Cmp.new, Cmp.new, h⟩, t) = (.ok (rs, c'), x) := by
  obtain ⟨rs, N, h4, h5⟩ := C123_error_partial L mem msd fv K hS hc h10 cs h h1
  refine ⟨rs, N, ?_, fun fuel hf t ht => h5 fuel hf 0 Cmp.new Cmp.new Cmp.new t rfl rfl rfl ht⟩
  clear h1 h5
  induction h4 with
  | nil => exact .nil _
  | cons a r ret _ ih => exact .cons a r ret ih
  | stop a r _ _ _ =>
    have h6 := congrArg (fun x => x.1.2) r
    rw [show _ = none from h3 _ _ _] at h6
    cases h6

theorem Means.struct_simple {S : Schema} {k ptr : Nat} {attrs : Attrs} {v : Val}
    (hv : Means S (.struct k) ((S.structs k).object ptr attrs) v) (hk : ∀ m ∈ (S.structs k).members, m.ty.Simple) : v.Kept := by
  generalize hd : (S.structs k).object ptr attrs = d at hv
  cases hv with
  | struct k' ptr' attrs' sent order which h =>
    simp only [StructDef.object, Dyn.struct.injEq] at hd
    obtain ⟨rfl, -, -, -, -, rfl⟩ := hd
    obtain ⟨a, b⟩ := ofList_fields (sent.map fun x => (x.1.id, x.2)) fun y hy => by
      obtain ⟨x, hx, rfl⟩ := List.mem_map.1 hy
      exact (h x hx).simple (hk x.1 ((which x.1).1 (List.mem_map_of_mem hx)).1)
    exact ⟨a, by simp [Val.norm, b]⟩

/-- C123 by the types alone: arguments that are numbers, strings and enums, and lists
and sets of them; results that are such values; exceptions with such fields. -/
theorem C123_simple_partial {σ η : Type} {C V : Transport σ} {up down cbuf vbuf : σ → Bytes} {S : Schema} (L : FloatLib)
    (mem : List Nat → Nat) (msd : Int) {sv : Service η} (fv : Nat) (K : Link C V up down cbuf vbuf) (hS : S.Ok) (hc : S.Compactable)
    (h10 : 10 ≤ fv) (cs : List (Method × Attrs)) (h : η) (h1 : ∀ c ∈ cs, Sound S sv c.1 c.2 ∧ c.1.oneway = false)
    (ht : ∀ c ∈ cs, Typed S (.struct c.1.args) ((S.structs c.1.args).object 0 c.2) ∧ ∀ h as r h', sv.handle c.1 h as = ((r, none), h') →
      Typed S (.struct c.1.result) ((S.structs c.1.result).object 0 r))
    (hs : ∀ c ∈ cs, (∀ m ∈ (S.structs c.1.args).members, m.ty.Simple) ∧ ∀ m ∈ (S.structs c.1.result).members,
      m.ty.Simple ∨ ∃ k, m.ty = .struct k ∧ ∀ n ∈ (S.structs k).members, n.ty.Simple)
    (h3 : ∀ m h as, (sv.handle m h as).1.2 = none) :
    ∃ rs N, Answered S sv h cs rs ∧ ∀ fuel, N ≤ fuel → ∀ t, Settled up down cbuf vbuf t → ∃ c' x,
      (callAll (Client.call (compact fv) S L mem msd fuel) cs).run (served C V (process (compact fv) (compact fv) S L mem msd fuel sv))
        (Client.ofFactory Cmp.new) (some ⟨Cmp.new, Cmp.new, h⟩, t) = (.ok (rs, c'), x) := by
  refine C123_partial L mem msd fv K hS hc h10 cs h (fun c hc => ⟨⟨(h1 c hc).1, (ht c hc).1, fun v hv => hv.struct_simple (hs c hc).1,
    (ht c hc).2, fun h as r h' hh x hx v hv => ?_⟩, (h1 c hc).2⟩) h3
  rcases (hs c hc).2 x hx with hx | ⟨k, hk, hn⟩
  · obtain ⟨a, b, -, d⟩ := hv.simple hx
    exact ⟨d, a, b⟩
  · rw [hk] at hv
    generalize attributeOf r x.id.toInt = d at hv
    cases hv with
    | struct k' ptr' attrs' sent order which h =>
      exact ⟨nofun, (Means.struct_simple (Means.struct k ptr' attrs' sent order which h) hn)⟩

example (x y : I32) := C123_simple_partial noFloats (fun _ => 0) 64 10 pipe_link sumSchema_ok (sv := sumService)
  (fun k m hm => by
    simp only [sumSchema] at hm
    split at hm
    · obtain rfl := List.mem_singleton.1 hm; exact ⟨trivial, trivial⟩
    · split at hm
      · obtain rfl := List.mem_singleton.1 hm; exact ⟨trivial, trivial⟩
      · cases hm) (by decide)
  [(addMethod, [(1, .int32 x)]), (addMethod, [(1, .int32 y)])] 0
  (by
    intro c hc
    simp only [List.mem_cons, List.not_mem_nil, or_false] at hc
    rcases hc with rfl | rfl <;> exact ⟨add_sound _, rfl⟩)
  (by
    intro c hc
    have key : ∀ x, Typed sumSchema (.struct 0) ((sumSchema.structs 0).object 0 [(1, .int32 x)]) ∧
        ∀ h as r h', sumService.handle addMethod h as = ((r, none), h') →
          Typed sumSchema (.struct 1) ((sumSchema.structs 1).object 0 r) := by
      refine fun x => ⟨Typed.struct 0 0 _ rfl fun m hm _ => ?_, fun h as r h' hh => ?_⟩
      · obtain rfl := List.mem_singleton.1 hm; exact Typed.i32 x
      · simp only [sumService, addMethod, Bool.false_eq_true, if_false, Prod.mk.injEq, and_true] at hh
        rw [← hh.1]
        refine Typed.struct 1 0 _ rfl fun m hm _ => ?_
        obtain rfl := List.mem_singleton.1 hm; exact Typed.i32 _
    simp only [List.mem_cons, List.not_mem_nil, or_false] at hc
    rcases hc with rfl | rfl <;> exact key _)
  (by
    intro c hc
    simp only [List.mem_cons, List.not_mem_nil, or_false] at hc
    rcases hc with rfl | rfl <;> exact ⟨fun m hm => by obtain rfl := List.mem_singleton.1 hm; trivial,
      fun m hm => by obtain rfl := List.mem_singleton.1 hm; exact .inl trivial⟩)
  (fun _ _ _ => rfl)

end Thrift
