import Verif.Lemmas.CompactAcross
import Verif.Props.Across
import Verif.Props.CompactService
/-!
# C217: calls between two versions of a service over the compact protocol
-/

namespace Thrift

/-- C217 for some pairs of versions and some calls.  A client of version `S` and a server
of version `S'` that use the compact protocol, connected by transports that work: any
sequence of calls returns what the handler returned, up to and including the first error. -/
def C217_for (lax : Prop) (pairs : Schema → Schema → Prop)
    (calls : ∀ {η : Type}, Schema → Schema → Service η → Method → Attrs → Prop) : Prop :=
  ∀ {σ η : Type} {C V : Transport σ} {up down cbuf vbuf : σ → Bytes} {S S' : Schema} (L : FloatLib) (mem : List Nat → Nat) (msd : Int)
    {sv : Service η} (fv : Nat), Link C V up down cbuf vbuf → S.Ok → S'.Ok → S.Compactable → S'.Compactable → Versions S S' → Versions S' S →
    pairs S S' → 10 ≤ fv → ∀ (cs : List (Method × Attrs)) (h : η),
    (∀ c ∈ cs, SoundAcross S S' sv c.1 c.2 ∧ Typed S (.struct c.1.args) ((S.structs c.1.args).object 0 c.2) ∧ calls S S' sv c.1 c.2) →
    ∃ rs N, AnsweredAcross S S' lax sv h cs rs ∧ ∀ fuel, N ≤ fuel → ∀ (n : I32) t, Settled up down cbuf vbuf t → ∃ c' x,
      (callAll (Client.call (compact fv) S L mem msd fuel) cs).run (served C V (process (compact fv) (compact fv) S' L mem msd fuel sv))
        { Client.ofFactory Cmp.new with seqId := n } (some ⟨Cmp.new, Cmp.new, h⟩, t) = (.ok (rs, c'), x)

def C217_statement : Prop := C217_for False (fun _ _ => True) fun _ _ _ _ _ => True

/-! ## What holds -/

/-- C217 for versions that agree about the default values of optional fields, for methods
whose exceptions the client knows, and for calls without what the compact protocol loses. -/
theorem C217_partial : C217_for False (fun S S' => SameDefaults S S' ∧ SameDefaults S' S)
    fun S S' sv m a => CompactAcross S S' sv m a ∧ Forewarned S S' m := by
  intro σ η C V up down cbuf vbuf S S' L mem msd sv fv K hS hS' hc hc' hv hv' hd h10 cs h h1
  obtain ⟨rs, N, h2, h3⟩ := compact_across_calls (L := L) (mem := mem) (msd := msd) K hS hS' hv hv' (.inr hd) hc hc' h10 (f := Cmp.new) rfl cs h
    fun c hc => (h1 c hc).2.2
  exact ⟨rs, N, h2, fun fuel hf n t ht => h3 fuel hf n Cmp.new Cmp.new Cmp.new t rfl rfl rfl ht⟩

/-- C217 for all versions, except that optional fields with their default value may be as
in a new object of the other version. -/
theorem C217_lax_partial : C217_for True (fun _ _ => True) fun S S' sv m a => CompactAcross S S' sv m a ∧ Forewarned S S' m := by
  intro σ η C V up down cbuf vbuf S S' L mem msd sv fv K hS hS' hc hc' hv hv' _ h10 cs h h1
  obtain ⟨rs, N, h2, h3⟩ := compact_across_calls (L := L) (mem := mem) (msd := msd) K hS hS' hv hv' (.inl trivial) hc hc' h10 (f := Cmp.new) rfl cs h
    fun c hc => (h1 c hc).2.2
  exact ⟨rs, N, h2, fun fuel hf n t ht => h3 fuel hf n Cmp.new Cmp.new Cmp.new t rfl rfl rfl ht⟩

/-- Nothing is lost by types alone: arguments that are numbers, strings and enums, and
lists and sets of them; results that are such values; exceptions with such fields. -/
theorem compact_across_simple {η : Type} {S S' : Schema} {sv : Service η} {m : Method} {a : Attrs} (hs : SoundAcross S S' sv m a)
    (ht : Typed S (.struct m.args) ((S.structs m.args).object 0 a))
    (hr : ∀ h as r h', sv.handle m h as = ((r, none), h') → Typed S' (.struct m.result) ((S'.structs m.result).object 0 r))
    (ha : ∀ x ∈ (S.structs m.args).members, x.ty.Simple)
    (hx : ∀ x ∈ (S'.structs m.result).members, x.ty.Simple ∨ ∃ k, x.ty = .struct k ∧ ∀ n ∈ (S'.structs k).members, n.ty.Simple) :
    CompactAcross S S' sv m a := by
  refine ⟨hs, ht, fun v hv => hv.struct_simple ha, hr, fun h as r h' hh x hm v hv => ?_⟩
  rcases hx x hm with hx | ⟨k, hk, hn⟩
  · obtain ⟨a, b, -, d⟩ := hv.simple hx
    exact ⟨d, a, b⟩
  · rw [hk] at hv
    generalize attributeOf r x.id.toInt = d at hv
    cases hv with
    | struct k' ptr' attrs' sent order which h =>
      exact ⟨nofun, (Means.struct_simple (Means.struct k ptr' attrs' sent order which h) hn)⟩

/-! ## Witnesses -/

theorem sum_compactable : sumSchema.Compactable := fun k m hm => by
  simp only [sumSchema] at hm
  split at hm
  · obtain rfl := List.mem_singleton.1 hm; exact ⟨trivial, trivial⟩
  · split at hm
    · obtain rfl := List.mem_singleton.1 hm; exact ⟨trivial, trivial⟩
    · cases hm

theorem sum2_compactable : sum2Schema.Compactable := fun k m hm => by
  match k with
  | 0 =>
    simp only [sum2Schema, List.mem_cons, List.not_mem_nil, or_false] at hm
    rcases hm with rfl | rfl <;> exact ⟨trivial, trivial⟩
  | 1 =>
    simp only [sum2Schema, List.mem_cons, List.not_mem_nil, or_false] at hm
    rcases hm with rfl | rfl <;> exact ⟨trivial, trivial⟩
  | _ + 2 => cases hm

theorem echo_compactable (d : I32) : (echoSchema d).Compactable := fun k m hm => by
  match k with
  | 0 => obtain rfl := List.mem_singleton.1 hm; exact ⟨trivial, trivial⟩
  | 1 => obtain rfl := List.mem_singleton.1 hm; exact ⟨trivial, trivial⟩
  | _ + 2 => cases hm

theorem sum_arg_typed (x : I32) : Typed sumSchema (.struct 0) ((sumSchema.structs 0).object 0 [(1, .int32 x)]) := by
  refine Typed.struct 0 0 _ rfl fun m hm _ => ?_
  obtain rfl := List.mem_singleton.1 hm; exact Typed.i32 x

theorem throw_compact (x : I32) : CompactAcross sumSchema sum2Schema throwService addMethod [(1, .int32 x)] := by
  refine compact_across_simple (throw_sound x) (sum_arg_typed x) (fun h as r h' hh => ?_) (fun m hm => ?_) fun m hm => ?_
  · simp only [throwService, Prod.mk.injEq, and_true] at hh
    rw [← hh]
    refine Typed.struct (S := sum2Schema) 1 0 _ rfl fun m hm _ => ?_
    simp only [sum2Schema, List.mem_cons, List.not_mem_nil, or_false] at hm
    rcases hm with rfl | rfl
    · exact Typed.i32 _
    · exact Typed.struct (S := sum2Schema) 3 5 _ rfl fun m hm => absurd hm List.not_mem_nil
  · obtain rfl := List.mem_singleton.1 hm; trivial
  · simp only [addMethod, sum2Schema, List.mem_cons, List.not_mem_nil, or_false] at hm
    rcases hm with rfl | rfl
    · exact .inl trivial
    · exact .inr ⟨3, rfl, fun m hm => absurd hm List.not_mem_nil⟩

/-- The caller takes an exception that its version does not know for the number zero. -/
theorem C217_exception_violated : ¬ C217_for True (fun S S' => SameDefaults S S' ∧ SameDefaults S' S) CompactAcross := by
  intro h
  obtain ⟨rs, N, h1, h2⟩ := h (sv := throwService) noFloats (fun _ => 0) 64 10 pipe_link sumSchema_ok sum2Schema_ok sum_compactable
    sum2_compactable sum_sum2.1 sum_sum2.2.1 sum_sum2.2.2 (by decide) [(addMethod, [(1, .int32 5)])] ()
    (by
      intro c hc
      rw [List.mem_singleton.1 hc]
      exact ⟨throw_sound 5, sum_arg_typed 5, throw_compact 5⟩)
  obtain ⟨c', x, h3⟩ := h2 (N + 10) (by omega) 0 ([], []) ⟨rfl, rfl, rfl, rfl⟩
  have h4 : callResults ((callAll (Client.call (compact 10) sumSchema noFloats (fun _ => 0) 64 (N + 10)) [(addMethod, [(1, .int32 5)])]).run
      (served pipeClient pipeServer (process (compact 10) (compact 10) sum2Schema noFloats (fun _ => 0) 64 (N + 10) throwService))
      { Client.ofFactory Cmp.new with seqId := 0 } (some ⟨Cmp.new, Cmp.new, ()⟩, ([], []))) =
      some [(some [(0, .int32 0)], none)] := by kernel_rfl
  rw [h3] at h4
  cases h4
  cases h1 with
  | cons a r ret rest =>
    simp only [throwService, Prod.mk.injEq, and_true] at r
    obtain ⟨rfl, -⟩ := r
    obtain ⟨r', h5, -, h6⟩ := ret
    cases h5
    obtain ⟨m, hm, h0, -⟩ := h6 ⟨⟨ascii "why", 1, .struct 3, false, none, 0, true⟩, by simp [sum2Schema, addMethod], by decide, nofun⟩
    rw [List.mem_singleton.1 hm] at h0
    exact h0 rfl
  | stop _ _ ret => exact nomatch ret

theorem echo_compact (d d' x : I32) : CompactAcross (echoSchema d) (echoSchema d') echoService addMethod [(1, .int32 x)] := by
  refine compact_across_simple (echo_sound d d' x) (Typed.struct (S := echoSchema d) 0 0 _ rfl fun m hm _ => ?_) (fun h as r h' hh => ?_)
    (fun m hm => ?_) fun m hm => ?_
  · obtain rfl := List.mem_singleton.1 hm; exact Typed.i32 x
  · simp only [echoService, Prod.mk.injEq, and_true] at hh
    obtain ⟨rfl, -⟩ := hh
    refine Typed.struct (S := echoSchema d') 1 0 _ rfl fun m hm _ => ?_
    obtain rfl := List.mem_singleton.1 hm
    show Typed _ .i32 (match attributeOf as 1 with | .int32 x => Dyn.int32 x | _ => .int32 0)
    split <;> exact Typed.i32 _
  · obtain rfl := List.mem_singleton.1 hm; trivial
  · obtain rfl := List.mem_singleton.1 hm; exact .inl trivial

/-- A caller who passes the default value of its version gets back that of the server's. -/
theorem C217_default_violated : ¬ C217_for False (fun _ _ => True) fun S S' sv m a => CompactAcross S S' sv m a ∧ Forewarned S S' m := by
  intro h
  obtain ⟨rs, N, h1, h2⟩ := h (sv := echoService) noFloats (fun _ => 0) 64 10 pipe_link (echoSchema_ok 5) (echoSchema_ok 7) (echo_compactable 5)
    (echo_compactable 7) (echo_versions 5 7) (echo_versions 7 5) trivial (by decide) [(addMethod, [(1, .int32 5)])] ()
    (by
      intro c hc
      rw [List.mem_singleton.1 hc]
      exact ⟨echo_sound 5 7 5, (echo_compact 5 7 5).typed, echo_compact 5 7 5, fun n hn _ => ⟨n, hn, rfl⟩⟩)
  obtain ⟨c', x, h3⟩ := h2 (N + 10) (by omega) 0 ([], []) ⟨rfl, rfl, rfl, rfl⟩
  have h4 : callResults ((callAll (Client.call (compact 10) (echoSchema 5) noFloats (fun _ => 0) 64 (N + 10)) [(addMethod, [(1, .int32 5)])]).run
      (served pipeClient pipeServer (process (compact 10) (compact 10) (echoSchema 7) noFloats (fun _ => 0) 64 (N + 10) echoService))
      { Client.ofFactory Cmp.new with seqId := 0 } (some ⟨Cmp.new, Cmp.new, ()⟩, ([], []))) =
      some [(some [(0, .int32 7)], none)] := by kernel_rfl
  rw [h3] at h4
  cases h4
  cases h1 with
  | cons a r ret rest =>
    have a1 := received_number a (x := 5) (List.mem_singleton.2 rfl) (List.mem_singleton.2 rfl) rfl rfl rfl
    replace a1 : attributeOf _ 1 = _ := a1
    simp only [echoService, a1, Prod.mk.injEq, and_true] at r
    obtain ⟨rfl, -⟩ := r
    obtain ⟨r', h5, h6, -⟩ := ret
    cases h5
    have := received_number h6 (x := 5) (List.mem_singleton.2 rfl) (List.mem_singleton.2 rfl) rfl rfl rfl
    replace this : Dyn.int32 7 = Dyn.int32 5 := this
    exact absurd (Dyn.int32.inj this) (by decide)
  | stop _ _ ret => exact nomatch ret

theorem not_across (b : Bool) : SoundAcross notSchema notSchema notService notMethod [(1, .bool b)] where
  known := .inl rfl
  reply := rfl
  name := by decide
  args := not_args b
  result := (not_sound b).result
  result' := (not_sound b).result
  fine := (not_sound b).fine
  message := (not_sound b).message

/-- A `false` does not arrive even if both have the same version. -/
theorem C217_false_violated : ¬ C217_for True (fun S S' => S = S') fun S S' _ m _ => Forewarned S S' m := by
  intro h
  obtain ⟨rs, N, h1, h2⟩ := h (sv := notService) noFloats (fun _ => 0) 64 10 pipe_link notSchema_ok notSchema_ok notSchema_compactable
    notSchema_compactable
    ⟨fun k m hm m' hm' he => by
        simp only [notSchema] at hm hm'
        split at hm <;> rename_i hk <;> simp only [hk, if_true, if_false] at hm' <;> rw [List.mem_singleton.1 hm, List.mem_singleton.1 hm'],
      fun _ h v => h v⟩
    ⟨fun k m hm m' hm' he => by
        simp only [notSchema] at hm hm'
        split at hm <;> rename_i hk <;> simp only [hk, if_true, if_false] at hm' <;> rw [List.mem_singleton.1 hm, List.mem_singleton.1 hm'],
      fun _ h v => h v⟩ rfl (by decide)
    [(notMethod, [(1, .bool false)])] ()
    (by
      intro c hc
      rw [List.mem_singleton.1 hc]
      exact ⟨not_across false, not_typed false, fun n hn _ => ⟨n, hn, rfl⟩⟩)
  obtain ⟨c', x, h3⟩ := h2 (N + 10) (by omega) 0 ([], []) ⟨rfl, rfl, rfl, rfl⟩
  have h4 : (callResults ((callAll (Client.call (compact 10) notSchema noFloats (fun _ => 0) 64 (N + 10)) [(notMethod, [(1, .bool false)])]).run
      (served pipeClient pipeServer (process (compact 10) (compact 10) notSchema noFloats (fun _ => 0) 64 (N + 10) notService))
      { Client.ofFactory Cmp.new with seqId := 0 } (some ⟨Cmp.new, Cmp.new, ()⟩, ([], [])))).map (List.map fun r => r.2.isSome) =
      some [true] := by kernel_rfl
  rw [h3] at h4
  cases h1 with
  | cons a r ret rest =>
    obtain ⟨r', h5, -⟩ := ret
    subst h5
    simp [callResults] at h4
  | stop a r _ _ _ =>
    simp only [notService, Prod.mk.injEq] at r
    exact nomatch r.1.2
  | unknown hk => exact hk notMethod (List.mem_singleton.2 rfl) rfl

theorem C217_violated : ¬ C217_statement := fun h =>
  C217_default_violated fun {_ _ _ _ _ _ _ _ _ _} L mem msd {_} fv K hS hS' hc hc' hv hv' hp h10 cs x h1 =>
    h L mem msd fv K hS hS' hc hc' hv hv' hp h10 cs x fun c hc => ⟨(h1 c hc).1, (h1 c hc).2.1, trivial⟩

/-! ## The hypotheses are met -/

theorem older_compact (x y : I32) : CompactAcross sum2Schema sumSchema sumService addMethod [(1, .int32 x), (2, .int32 y)] := by
  refine compact_across_simple (older_sound x y) (Typed.struct (S := sum2Schema) 0 0 _ rfl fun m hm _ => ?_) (fun h as r h' hh => ?_)
    (fun m hm => ?_) fun m hm => ?_
  · simp only [sum2Schema, List.mem_cons, List.not_mem_nil, or_false] at hm
    rcases hm with rfl | rfl
    · exact Typed.i32 x
    · exact Typed.i32 y
  · simp only [sumService, addMethod, Bool.false_eq_true, if_false, Prod.mk.injEq, and_true] at hh
    rw [← hh.1]
    refine Typed.struct 1 0 _ rfl fun m hm _ => ?_
    obtain rfl := List.mem_singleton.1 hm; exact Typed.i32 _
  · simp only [addMethod, sum2Schema, List.mem_cons, List.not_mem_nil, or_false] at hm
    rcases hm with rfl | rfl <;> trivial
  · obtain rfl := List.mem_singleton.1 hm; exact .inl trivial

/-- A newer client and an older server. -/
example (x y x' y' : I32) := C217_partial noFloats (fun _ => 0) 64 10 pipe_link sum2Schema_ok sumSchema_ok sum2_compactable sum_compactable
  sum_sum2.2.1 sum_sum2.1 ⟨sum_sum2.2.2.2, sum_sum2.2.2.1⟩ (sv := sumService) (by decide)
  [(addMethod, [(1, .int32 x), (2, .int32 y)]), (addMethod, [(1, .int32 x'), (2, .int32 y')])] 0
  (by
    intro c hc
    simp only [List.mem_cons, List.not_mem_nil, or_false] at hc
    rcases hc with rfl | rfl <;> exact ⟨older_sound _ _, (older_compact _ _).typed, older_compact _ _, fun n hn h0 => by
      rw [List.mem_singleton.1 hn] at h0
      exact absurd rfl h0⟩)

/-- Another default value. -/
example (x : I32) := C217_lax_partial noFloats (fun _ => 0) 64 10 pipe_link (echoSchema_ok 5) (echoSchema_ok 7) (echo_compactable 5)
  (echo_compactable 7) (echo_versions 5 7) (echo_versions 7 5) trivial (sv := echoService) (by decide) [(addMethod, [(1, .int32 x)])] ()
  (by
    intro c hc
    rw [List.mem_singleton.1 hc]
    exact ⟨echo_sound 5 7 x, (echo_compact 5 7 x).typed, echo_compact 5 7 x, fun n hn _ => ⟨n, hn, rfl⟩⟩)

end Thrift
