import Verif.Lemmas.Relay
import Verif.Props.Forward
/-!
# C213: programs between two others
-/

namespace Thrift

/-- C213 for some pairs of versions.  What a program writes comes to another program of the
same version through one of version `S'`, which reads the object and writes it again. -/
def C213_for (which : Schema → Schema → Prop) : Prop :=
  ∀ (S S' : Schema) (L L' : FloatLib) (mem mem' : List Nat → Nat) (msd msd' : Int) (k ptr : Nat) (attrs : Attrs) (path path' : List Nat)
    (sw sr sw' sr' : Bin), S.Ok → S'.Ok → Versions S S' → Versions S' S → which S S' → sr.checkReadLength = false →
    sr'.checkReadLength = false → Fine S (.struct k) ((S.structs k).object ptr attrs) →
    ∃ N, ∀ fuel, N ≤ fuel → ∃ as' as'',
      RoundTrips (genWrite binary S fuel (S.structs k) attrs) sw (genRead binary S' L' mem' msd' fuel path' (S'.structs k)) sr' as' ∧
      RoundTrips (genWrite binary S' fuel (S'.structs k) as') sw' (genRead binary S L mem msd fuel path (S.structs k)) sr as'' ∧
      Same ((S.structs k).object ptr attrs) ((S.structs k).object (mem path) as'')

def C213_statement : Prop := C213_for fun _ _ => True

/-- To refute C213, show what comes out. -/
theorem relay_refute {S S' : Schema} {attrs as' as'' : Attrs} {fs fs' : Fields} (hS : S.Ok) (hS' : S'.Ok) (hv : Versions S S')
    (hv' : Versions S' S) (hf : Fine S (.struct 0) ((S.structs 0).object 0 attrs))
    (h1 : ∀ fuel, flatMembers S (flatVal true S (fuel + 10)) attrs (S.structs 0).sorted = some fs) (hsz : fs.size ≤ 10)
    (hw : fs.WF) (hc : fs.Conforms S' (S'.structs 0))
    (hb : buildFields S' noFloats (fun _ => 0) fs [] (S'.structs 0) ((S'.structs 0).fresh S') = .ok as')
    (h2 : ∀ fuel, flatMembers S' (flatVal true S' (fuel + 10)) as' (S'.structs 0).sorted = some fs') (hsz' : fs'.size ≤ 10)
    (hw' : fs'.WF) (hc' : fs'.Conforms S (S.structs 0))
    (hb' : buildFields S noFloats (fun _ => 0) fs' [] (S.structs 0) ((S.structs 0).fresh S) = .ok as'')
    (i : Int) (hn : ¬ Same (attributeOf attrs i) (attributeOf as'' i)) : ¬ C213_statement := by
  intro h
  obtain ⟨N, h⟩ := h S S' noFloats noFloats (fun _ => 0) (fun _ => 0) 64 64 0 0 attrs [] [] Bin.default Bin.default Bin.default Bin.default
    hS hS' hv hv' trivial rfl rfl hf
  obtain ⟨bs, cs, r1, r2, hs⟩ := h (N + 10) (by omega)
  have e := r1.unique (binary_versions (L := noFloats) (mem := fun _ => 0) (path := []) hS' 64 Bin.default Bin.default rfl (hS' 0) (by omega) (h1 N)
    hw hc hb)
  subst e
  have e := r2.unique (binary_versions (L := noFloats) (mem := fun _ => 0) (path := []) hS 64 Bin.default Bin.default rfl (hS 0) (by omega) (h2 N)
    hw' hc' hb')
  subst e
  exact hn (hs.attr i)

/-- No fields. -/
def emptySchema : Schema where
  structs _ := ⟨ascii "S", []⟩
  enumText _ _ := []

theorem emptySchema_ok : emptySchema.Ok := fun _ =>
  ⟨by simp [emptySchema], by simp [emptySchema], by simp [emptySchema], by simp [emptySchema]⟩

/-- A program that does not know a field drops it. -/
theorem C213_unknown_violated : ¬ C213_statement :=
  relay_refute (S := optSchema none) (S' := emptySchema) (attrs := [(1, .int32 5)]) (as' := []) (as'' := [(1, .int32 0)])
    (fs := .cons 1 (.i32 5) .nil) (fs' := .nil) (optSchema_ok _) emptySchema_ok
    ⟨fun _ _ _ _ hm' => (nomatch hm'), fun _ h v => h v⟩ ⟨fun _ _ hm => (nomatch hm), fun _ h v => h v⟩ (opt_fine _ 5)
    (fun _ => rfl) (by simp [Fields.size, Val.size]) ⟨trivial, trivial⟩ ⟨fun _ hm => (nomatch hm), fun h => absurd h (by decide), trivial⟩ rfl
    (fun _ => rfl) (by simp [Fields.size]) trivial trivial rfl 1 (by intro h; cases h)

/-- A program with another default drops what is equal to that: 7 becomes 5. -/
theorem C213_default_violated : ¬ C213_statement :=
  relay_refute (S := optSchema (some (.int32 5))) (S' := optSchema (some (.int32 7))) (attrs := [(1, .int32 7)]) (as' := [(1, .int32 7)])
    (as'' := [(1, .int32 5)]) (fs := .cons 1 (.i32 7) .nil) (fs' := .nil) (optSchema_ok _) (optSchema_ok _)
    (opt_versions _ _) (opt_versions _ _) (opt_fine _ 7)
    (fun _ => rfl) (by simp [Fields.size, Val.size]) ⟨trivial, trivial⟩
    ⟨fun m hm _ => by rw [List.mem_singleton.1 hm]; exact trivial, fun h => absurd h (by decide), trivial⟩ rfl
    (fun _ => rfl) (by simp [Fields.size]) trivial trivial rfl 1 (by intro h; cases h)

theorem C213_violated : ¬ C213_statement := C213_unknown_violated

/-- C213 for versions that know all fields with the same default values. -/
theorem C213_partial : C213_for Relays := by
  intro S S' L L' mem mem' msd msd' k ptr attrs path path' sw sr sw' sr' hS hS' hv hv' hrel hr hr' hf
  obtain ⟨as', h1, N, h2⟩ := versions_uniform True S S' L' mem' msd' k ptr attrs path' sw sr' hS hS' hv (.inl trivial) hr' hf
  have hf' := h1.fine hv hrel hf
  obtain ⟨as'', g1, M, g2⟩ := versions_uniform True S' S L mem msd k (mem' path') as' path sw' sr hS' hS hv' (.inl trivial) hr hf'
  exact ⟨max N M, fun fuel hfu => ⟨as', as'', h2 fuel (by omega), g2 fuel (by omega), (h1.relayed hS hv hrel hf g1).same hf⟩⟩

/-! ## The hypotheses are met -/

/-- A newer version of the optional number: with another number and a list. -/
def widerSchema : Schema where
  structs _ := ⟨ascii "S", [⟨ascii "a", 1, .i32, true, none, 0, true⟩, ⟨ascii "b", 2, .i32, false, some (.int32 9), 0, true⟩,
    ⟨ascii "c", 3, .list .string, true, none, 0, true⟩]⟩
  enumText _ _ := []

theorem widerSchema_ok : widerSchema.Ok := fun _ =>
  ⟨by simp [widerSchema], by simp [widerSchema]; decide, by simp [widerSchema], by simp [widerSchema]; decide⟩

theorem opt_wider : Versions (optSchema none) widerSchema ∧ Versions widerSchema (optSchema none) ∧ Relays (optSchema none) widerSchema := by
  have hw : ∀ k, ∀ m ∈ (optSchema none).structs k |>.members, ∀ m' ∈ (widerSchema.structs k).members, m.id = m'.id → m = m' := by
    intro k m hm m' hm' he
    simp only [optSchema, widerSchema, List.mem_cons, List.not_mem_nil, or_false] at hm hm'
    obtain rfl := hm
    rcases hm' with rfl | rfl | rfl <;> first | rfl | exact absurd he (by decide)
  refine ⟨⟨fun k m hm m' hm' he => by rw [hw k m hm m' hm' he], fun k h v => h v⟩,
    ⟨fun k m hm m' hm' he => by rw [hw k m' hm' m hm he.symm], fun k h v => h v⟩,
    fun k m hm => ⟨m, ?_, rfl⟩, fun k m hm m' hm' he => by rw [hw k m hm m' hm' he], fun k m hm m' hm' he h => by rw [hw k m hm m' hm' he]; exact h,
    ?_, ?_, ?_⟩
  · obtain rfl := List.mem_singleton.1 hm; exact List.mem_cons_self
  all_goals
    intro k m' hm'
    simp only [widerSchema, List.mem_cons, List.not_mem_nil, or_false] at hm'
    rcases hm' with rfl | rfl | rfl
  · exact nofun
  · exact nofun
  · exact nofun
  · exact .inr (Fine.i32 0)
  · exact .inr (Fine.i32 9)
  · exact .inl ⟨rfl, .inl ⟨trivial, rfl⟩⟩
  · exact fun _ => rfl
  · exact nofun
  · exact fun _ => rfl

example (n : I32) := C213_partial (optSchema none) widerSchema noFloats noFloats (fun _ => 0) (fun _ => 0) 64 64 0 0 [(1, .int32 n)] [] []
  Bin.default Bin.default Bin.default Bin.default (optSchema_ok _) widerSchema_ok opt_wider.1 opt_wider.2.1 opt_wider.2.2 rfl rfl (opt_fine _ n)

end Thrift
