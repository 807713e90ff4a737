import Verif.Lemmas.Across
import Verif.Props.Service
/-!
# C211: calls between two versions of a service
-/

namespace Thrift

/-- C211 for some pairs of versions and some methods.  A client of version `S` and a server
of version `S'`, connected by transports that work: any sequence of calls returns what the
handler returned, up to and including the first error. -/
def C211_for (lax : Prop) (pairs : Schema → Schema → Prop) (methods : Schema → Schema → Method → Prop) : Prop :=
  ∀ {σ η : Type} {C V : Transport σ} {up down cbuf vbuf : σ → Bytes} {S S' : Schema} (L : FloatLib) (mem : List Nat → Nat) (msd : Int)
    {sv : Service η} {f i o : Bin}, Link C V up down cbuf vbuf → S.Ok → S'.Ok → Versions S S' → Versions S' S → pairs S S' →
    Compatible f i o → ∀ (cs : List (Method × Attrs)) (h : η), (∀ c ∈ cs, SoundAcross S S' sv c.1 c.2 ∧ methods S S' c.1) →
    ∃ rs N, AnsweredAcross S S' lax sv h cs rs ∧ ∀ fuel, N ≤ fuel → ∀ (n : I32) t, Settled up down cbuf vbuf t → ∃ c' x,
      (callAll (Client.call binary S L mem msd fuel) cs).run (served C V (process binary binary S' L mem msd fuel sv))
        { Client.ofFactory f with seqId := n } (some ⟨i, o, h⟩, t) = (.ok (rs, c'), x)

def C211_statement : Prop := C211_for False (fun _ _ => True) fun _ _ _ => True

/-! ## An exception that the client does not know -/

/-- The newer version of `sumSchema`: another argument, and an exception. -/
def sum2Schema : Schema where
  structs
    | 0 => ⟨ascii "args", [⟨ascii "x", 1, .i32, false, none, 0, true⟩, ⟨ascii "y", 2, .i32, false, some (.int32 1), 0, true⟩]⟩
    | 1 => ⟨ascii "result", [⟨ascii "success", 0, .i32, false, none, 0, true⟩, ⟨ascii "why", 1, .struct 3, false, none, 0, true⟩]⟩
    | _ => ⟨ascii "none", []⟩
  enumText _ _ := ascii "X"

theorem sum2Schema_ok : sum2Schema.Ok := by
  intro k
  match k with
  | 0 => exact ⟨by simp [sum2Schema], by simp [sum2Schema]; decide, by simp [sum2Schema], by simp [sum2Schema]; decide⟩
  | 1 => exact ⟨by simp [sum2Schema], by simp [sum2Schema]; decide, by simp [sum2Schema], by simp [sum2Schema]; decide⟩
  | _ + 2 => exact ⟨by simp [sum2Schema], by simp [sum2Schema], by simp [sum2Schema], by simp [sum2Schema]⟩

theorem sum_sum2 : Versions sumSchema sum2Schema ∧ Versions sum2Schema sumSchema ∧ SameDefaults sumSchema sum2Schema ∧
    SameDefaults sum2Schema sumSchema := by
  refine ⟨⟨fun k m hm m' hm' he => ?_, fun k h v => h v⟩, ⟨fun k m hm m' hm' he => ?_, fun k h v => h v⟩,
    fun k m hm m' hm' he _ => ?_, fun k m hm m' hm' he _ => ?_⟩
  all_goals
    match k with
    | 0 =>
      simp only [sumSchema, sum2Schema, if_true, List.mem_cons, List.not_mem_nil, or_false] at hm hm'
      first
      | (obtain rfl := hm; rcases hm' with rfl | rfl <;> first | rfl | exact absurd he (by decide))
      | (obtain rfl := hm'; rcases hm with rfl | rfl <;> first | rfl | exact absurd he (by decide))
    | 1 =>
      simp only [sumSchema, sum2Schema, Nat.one_ne_zero, if_false, if_true, List.mem_cons, List.not_mem_nil, or_false] at hm hm'
      first
      | (obtain rfl := hm; rcases hm' with rfl | rfl <;> first | rfl | exact absurd he (by decide))
      | (obtain rfl := hm'; rcases hm with rfl | rfl <;> first | rfl | exact absurd he (by decide))
    | k + 2 =>
      simp [sumSchema, sum2Schema] at hm hm'

theorem sum2_resultDef : ResultDef (sum2Schema.structs 1) where
  plain m hm := by
    simp only [sum2Schema, List.mem_cons, List.not_mem_nil, or_false] at hm
    rcases hm with rfl | rfl <;> rfl
  exceptions m hm h := by
    simp only [sum2Schema, List.mem_cons, List.not_mem_nil, or_false] at hm
    rcases hm with rfl | rfl
    · exact absurd rfl h
    · exact ⟨3, rfl⟩

/-- A result of the newer version: a number or an exception. -/
def sum2Result (x : Option I32) : Attrs :=
  match x with
  | some x => [(0, .int32 x), (1, .nil)]
  | none => [(0, .int32 0), (1, (sum2Schema.structs 3).object 5 [])]

theorem sum2_result (x : Option I32) : Fine sum2Schema (.struct 1) ((sum2Schema.structs 1).object 0 (sum2Result x)) ∧
    OneOutcome sum2Schema (sum2Schema.structs 1) (sum2Result x) := by
  refine ⟨Fine.struct 1 0 _ (by cases x <;> rfl) ?_ ?_ ?_, ?_⟩
  · intro m hm
    simp only [sum2Schema, List.mem_cons, List.not_mem_nil, or_false] at hm
    rcases hm with rfl | rfl <;> exact nofun
  · intro m hm
    simp only [sum2Schema, List.mem_cons, List.not_mem_nil, or_false] at hm
    rcases hm with rfl | rfl <;> exact nofun
  · intro m hm hu
    simp only [sum2Schema, List.mem_cons, List.not_mem_nil, or_false] at hm
    cases x with
    | some x =>
      rcases hm with rfl | rfl
      · exact Fine.i32 _
      · exact absurd ⟨rfl, .inl ⟨trivial, rfl⟩⟩ hu
    | none =>
      rcases hm with rfl | rfl
      · exact Fine.i32 _
      · exact Fine.struct (S := sum2Schema) 3 5 [] rfl (fun _ h => absurd h List.not_mem_nil) (fun _ h => absurd h List.not_mem_nil)
          (fun _ h => absurd h List.not_mem_nil)
  · intro a ha b hb h
    simp only [sum2Schema, List.mem_cons, List.not_mem_nil, or_false] at ha hb
    cases x with
    | some x =>
      rcases ha with rfl | rfl
      · rcases hb with rfl | rfl
        · exact absurd rfl h
        · exact .inr rfl
      · exact .inl rfl
    | none =>
      rcases ha with rfl | rfl
      · exact .inl rfl
      · rcases hb with rfl | rfl
        · exact .inr rfl
        · exact absurd rfl h

/-- The handler of the newer version throws the exception. -/
def throwService : Service Unit := ⟨[addMethod], fun _ h _ => ((sum2Result none, none), h)⟩

theorem throw_sound (x : I32) : SoundAcross sumSchema sum2Schema throwService addMethod [(1, .int32 x)] where
  known := .inl rfl
  reply := rfl
  name := by decide
  args := sum_args x
  result := sum_resultDef
  result' := sum2_resultDef
  fine h as r h' hh := by
    simp only [throwService, Prod.mk.injEq, and_true] at hh
    rw [← hh]
    exact sum2_result none
  message h as r e h' hh := by simp [throwService] at hh

/-- The caller takes an exception that its version does not know for the number zero. -/
theorem C211_exception_violated : ¬ C211_for True (fun _ _ => True) fun _ _ _ => True := by
  intro h
  obtain ⟨rs, N, h1, h2⟩ := h (sv := throwService) noFloats (fun _ => 0) 64 pipe_link sumSchema_ok sum2Schema_ok sum_sum2.1 sum_sum2.2.1 trivial
    (f := Bin.default) (i := Bin.default) (o := Bin.default) ⟨rfl, rfl, .inl rfl, .inl rfl⟩ [(addMethod, [(1, .int32 5)])] ()
    (by
      intro c hc
      rw [List.mem_singleton.1 hc]
      exact ⟨throw_sound 5, trivial⟩)
  obtain ⟨c', x, h3⟩ := h2 (N + 10) (by omega) 0 ([], []) ⟨rfl, rfl, rfl, rfl⟩
  have h4 : callResults ((callAll (Client.call binary sumSchema noFloats (fun _ => 0) 64 (N + 10)) [(addMethod, [(1, .int32 5)])]).run
      (served pipeClient pipeServer (process binary binary sum2Schema noFloats (fun _ => 0) 64 (N + 10) throwService))
      { Client.ofFactory Bin.default with seqId := 0 } (some ⟨Bin.default, Bin.default, ()⟩, ([], []))) =
      some [(some [(0, .int32 0)], none)] := by kernel_rfl
  rw [h3] at h4
  cases h4
  cases h1 with
  | cons a r ret rest =>
    simp only [throwService, Prod.mk.injEq, and_true] at r
    obtain ⟨rfl, -⟩ := r
    obtain ⟨r', h5, -, h6⟩ := ret
    cases h5
    obtain ⟨m, hm, h0, -⟩ := h6 ⟨⟨ascii "why", 1, .struct 3, false, none, 0, true⟩, by simp [sum2Schema, addMethod], by decide, nofun⟩
    rw [List.mem_singleton.1 hm] at h0
    exact h0 rfl
  | stop _ _ ret => exact nomatch ret

/-! ## A default value that has changed -/

/-- A method with an optional argument. -/
def echoSchema (d : I32) : Schema where
  structs
    | 0 => ⟨ascii "args", [⟨ascii "x", 1, .i32, true, some (.int32 d), 0, true⟩]⟩
    | 1 => ⟨ascii "result", [⟨ascii "success", 0, .i32, false, none, 0, true⟩]⟩
    | _ => ⟨ascii "none", []⟩
  enumText _ _ := ascii "X"

theorem echoSchema_ok (d : I32) : (echoSchema d).Ok := by
  intro k
  match k with
  | 0 => exact ⟨by simp [echoSchema], by simp [echoSchema], by simp [echoSchema], by simp [echoSchema]; decide⟩
  | 1 => exact ⟨by simp [echoSchema], by simp [echoSchema], by simp [echoSchema], by simp [echoSchema]; decide⟩
  | _ + 2 => exact ⟨by simp [echoSchema], by simp [echoSchema], by simp [echoSchema], by simp [echoSchema]⟩

theorem echo_versions (d d' : I32) : Versions (echoSchema d) (echoSchema d') where
  types k m hm m' hm' _ := by
    match k with
    | 0 => rw [List.mem_singleton.1 hm, List.mem_singleton.1 hm']
    | 1 => rw [List.mem_singleton.1 hm, List.mem_singleton.1 hm']
    | k + 2 => exact absurd hm List.not_mem_nil
  texts k h v := h v

/-- The handler returns its argument. -/
def echoService : Service Unit := ⟨[addMethod], fun _ h as => (([(0, match attributeOf as 1 with | .int32 x => .int32 x | _ => .int32 0)], none), h)⟩

theorem echo_sound (d d' x : I32) : SoundAcross (echoSchema d) (echoSchema d') echoService addMethod [(1, .int32 x)] where
  known := .inl rfl
  reply := rfl
  name := by decide
  args := by
    refine Fine.struct 0 0 _ rfl ?_ ?_ ?_ <;> intro m hm <;> obtain rfl := List.mem_singleton.1 hm
    · exact nofun
    · exact fun _ => rfl
    · exact fun _ => Fine.i32 x
  result := ⟨fun m hm => by rw [List.mem_singleton.1 hm], fun m hm h => by rw [List.mem_singleton.1 hm] at h; exact absurd rfl h⟩
  result' := ⟨fun m hm => by rw [List.mem_singleton.1 hm], fun m hm h => by rw [List.mem_singleton.1 hm] at h; exact absurd rfl h⟩
  fine h as r h' hh := by
    simp only [echoService, Prod.mk.injEq, and_true] at hh
    obtain ⟨rfl, -⟩ := hh
    refine ⟨Fine.struct 1 0 _ rfl ?_ ?_ ?_, ?_⟩
    · intro m hm; rw [List.mem_singleton.1 hm]; exact nofun
    · intro m hm; rw [List.mem_singleton.1 hm]; exact nofun
    · intro m hm _
      rw [List.mem_singleton.1 hm]
      show Fine _ .i32 (match attributeOf as 1 with | .int32 x => Dyn.int32 x | _ => .int32 0)
      split <;> exact Fine.i32 _
    · intro a ha b hb h
      rw [List.mem_singleton.1 ha, List.mem_singleton.1 hb] at h
      exact absurd rfl h
  message h as r e h' hh := by simp [echoService] at hh

/-- What a struct of two versions with one number says. -/
theorem received_number {S S' : Schema} {k : Nat} {n n' : Member} {as bs : Attrs} {x : I32} (h : ReceivedAttrs S S' False k as bs)
    (hn : n ∈ (S.structs k).members) (hn' : n' ∈ (S'.structs k).members) (he : n.id = n'.id) (ht : n.ty = .i32)
    (hx : attributeOf as n.id.toInt = .int32 x) : attributeOf bs n.id.toInt = .int32 x := by
  unfold ReceivedAttrs at h
  generalize hx' : (S.structs k).object 0 as = u at h
  generalize hy' : (S'.structs k).object 0 bs = w at h
  cases h with
  | leaf ht => exact ht.elim
  | struct ids new unset set =>
    simp only [StructDef.object, Dyn.struct.injEq] at hx' hy'
    obtain ⟨-, -, -, -, -, rfl⟩ := hx'
    obtain ⟨-, -, -, -, -, rfl⟩ := hy'
    have := set n hn n' hn' he (by
      rintro ⟨-, ⟨h, -⟩ | ⟨i, h, -⟩⟩
      · rw [ht] at h; exact h
      · rw [ht] at h; cases h) fun h => h.1
    rw [ht, hx] at this
    generalize attributeOf bs n.id.toInt = d at this
    cases this with
    | leaf _ hs => cases hs; rfl

/-- A caller who passes the default value of its version gets back that of the server's. -/
theorem C211_default_violated : ¬ C211_for False (fun _ _ => True) Forewarned := by
  intro h
  obtain ⟨rs, N, h1, h2⟩ := h (sv := echoService) noFloats (fun _ => 0) 64 pipe_link (echoSchema_ok 5) (echoSchema_ok 7) (echo_versions 5 7)
    (echo_versions 7 5) trivial
    (f := Bin.default) (i := Bin.default) (o := Bin.default) ⟨rfl, rfl, .inl rfl, .inl rfl⟩ [(addMethod, [(1, .int32 5)])] ()
    (by
      intro c hc
      rw [List.mem_singleton.1 hc]
      exact ⟨echo_sound 5 7 5, fun n hn _ => ⟨n, hn, rfl⟩⟩)
  obtain ⟨c', x, h3⟩ := h2 (N + 10) (by omega) 0 ([], []) ⟨rfl, rfl, rfl, rfl⟩
  have h4 : callResults ((callAll (Client.call binary (echoSchema 5) noFloats (fun _ => 0) 64 (N + 10)) [(addMethod, [(1, .int32 5)])]).run
      (served pipeClient pipeServer (process binary binary (echoSchema 7) noFloats (fun _ => 0) 64 (N + 10) echoService))
      { Client.ofFactory Bin.default with seqId := 0 } (some ⟨Bin.default, Bin.default, ()⟩, ([], []))) =
      some [(some [(0, .int32 7)], none)] := by kernel_rfl
  rw [h3] at h4
  cases h4
  cases h1 with
  | cons a r ret rest =>
    have a1 := received_number a (x := 5) (List.mem_singleton.2 rfl) (List.mem_singleton.2 rfl) rfl rfl rfl
    replace a1 : attributeOf _ 1 = _ := a1
    simp only [echoService, a1, Prod.mk.injEq, and_true] at r
    obtain ⟨rfl, -⟩ := r
    obtain ⟨r', h5, h6, -⟩ := ret
    cases h5
    have := received_number h6 (x := 5) (List.mem_singleton.2 rfl) (List.mem_singleton.2 rfl) rfl rfl rfl
    replace this : Dyn.int32 7 = Dyn.int32 5 := this
    exact absurd (Dyn.int32.inj this) (by decide)
  | stop _ _ ret => exact nomatch ret

theorem C211_violated : ¬ C211_statement := fun h =>
  C211_default_violated fun {_ _ _ _ _ _ _ _ _ _} L mem msd {_ _ _ _} K hS hS' hv hv' hp hc cs x h1 =>
    h L mem msd K hS hS' hv hv' hp hc cs x fun c hc => ⟨(h1 c hc).1, trivial⟩

/-! ## What holds -/

/-- C211 for versions that agree about the default values of optional fields, and for
methods whose exceptions the client knows. -/
theorem C211_partial : C211_for False (fun S S' => SameDefaults S S' ∧ SameDefaults S' S) Forewarned :=
  fun {_ _ _ _ _ _ _ _ _ _} _ _ _ {_ _ _ _} K hS hS' hv hv' hd hc cs h h1 => across_calls K hS hS' hv hv' (.inr hd) hc cs h h1

/-- C211 for all versions, except that optional fields with their default value may be as
in a new object of the other version. -/
theorem C211_lax_partial : C211_for True (fun _ _ => True) Forewarned :=
  fun {_ _ _ _ _ _ _ _ _ _} _ _ _ {_ _ _ _} K hS hS' hv hv' _ hc cs h h1 => across_calls K hS hS' hv hv' (.inl trivial) hc cs h h1

/-! ## The hypotheses are met -/

/-- The handler of the older version. -/
theorem older_sound (x : I32) (y : I32) : SoundAcross sum2Schema sumSchema sumService addMethod [(1, .int32 x), (2, .int32 y)] where
  known := .inl rfl
  reply := rfl
  name := by decide
  args := by
    refine Fine.struct 0 0 _ rfl ?_ ?_ ?_ <;> intro m hm <;> simp only [sum2Schema, List.mem_cons, List.not_mem_nil, or_false] at hm <;>
      rcases hm with rfl | rfl
    · exact nofun
    · exact nofun
    · exact nofun
    · exact nofun
    · exact fun _ => Fine.i32 x
    · exact fun _ => Fine.i32 y
  result := sum2_resultDef
  result' := sum_resultDef
  fine := (add_sound x).fine
  message := (add_sound x).message

/-- A newer client and an older server. -/
example (x y x' y' : I32) := C211_partial noFloats (fun _ => 0) 64 pipe_link sum2Schema_ok sumSchema_ok sum_sum2.2.1 sum_sum2.1
  ⟨sum_sum2.2.2.2, sum_sum2.2.2.1⟩ (sv := sumService) (f := Bin.default) (i := Bin.default) (o := Bin.default) ⟨rfl, rfl, .inl rfl, .inl rfl⟩
  [(addMethod, [(1, .int32 x), (2, .int32 y)]), (addMethod, [(1, .int32 x'), (2, .int32 y')])] 0
  (by
    intro c hc
    simp only [List.mem_cons, List.not_mem_nil, or_false] at hc
    rcases hc with rfl | rfl <;> exact ⟨older_sound _ _, fun n hn h0 => by
      rw [List.mem_singleton.1 hn] at h0
      exact absurd rfl h0⟩)

/-- Another default value. -/
example (x : I32) := C211_lax_partial noFloats (fun _ => 0) 64 pipe_link (echoSchema_ok 5) (echoSchema_ok 7) (echo_versions 5 7) (echo_versions 7 5)
  trivial (sv := echoService) (f := Bin.default) (i := Bin.default) (o := Bin.default) ⟨rfl, rfl, .inl rfl, .inl rfl⟩
  [(addMethod, [(1, .int32 x)])] ()
  (by
    intro c hc
    rw [List.mem_singleton.1 hc]
    exact ⟨echo_sound 5 7 x, fun n hn _ => ⟨n, hn, rfl⟩⟩)

end Thrift
