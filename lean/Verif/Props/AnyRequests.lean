import Verif.Lemmas.AnyRequests
import Verif.Props.RequestLoop
import Verif.Props.Hostile
/-!
# Connections on which anything may arrive
-/

namespace Thrift

/-! ## C199: whole answers and nothing else, whatever arrives -/

/-- C199: whatever bytes arrive on a connection, the server sends one whole answer for
each request that it can make out, in their order and nothing else, until the connection
ends. -/
def C199_statement : Prop :=
  ∀ {σ η : Type} {T : Transport σ} {inn out buf : σ → Bytes} {S : Schema} (L : FloatLib) (mem : List Nat → Nat) (msd : Int)
    {sv : Service η} {i : Bin} (o : Bin), Endpoint T inn out buf → S.Ok → i.checkReadLength = false → sv.Able S → ∀ (h : η) (t : σ),
    ∃ replies h' N, Serving S L mem msd i sv o.strictWrite h (inn t) replies (.ended h') ∧
      ∀ fuel, N ≤ fuel → ∀ stopped rounds, (inn t).length < rounds → ∃ t',
        (requestLoop (process binary binary S L mem msd fuel sv) stopped rounds 0).run T ⟨i, o, h⟩ t = (.ok ((), ⟨i, o, h'⟩), t') ∧
          out t' ++ buf t' = out t ++ buf t ++ replies.flatten

/-- The whole truth: the same, and when the arguments of a request break the reader the
server panics after the answers to all requests before. -/
theorem C199_partial {σ η : Type} {T : Transport σ} {inn out buf : σ → Bytes} {S : Schema} (L : FloatLib) (mem : List Nat → Nat)
    (msd : Int) {sv : Service η} {i : Bin} (o : Bin) (E : Endpoint T inn out buf) (hS : S.Ok) (hi : i.checkReadLength = false)
    (hv : sv.Able S) (h : η) (t : σ) :
    ∃ replies fate N, Serving S L mem msd i sv o.strictWrite h (inn t) replies fate ∧
      ∀ fuel, N ≤ fuel → ∀ stopped rounds, (inn t).length < rounds → ∃ t',
        (requestLoop (process binary binary S L mem msd fuel sv) stopped rounds 0).run T ⟨i, o, h⟩ t = (fate.outcome i o, t') ∧
          out t' ++ buf t' = out t ++ buf t ++ replies.flatten := by
  obtain ⟨replies, fate, N, h1, h2⟩ := E.serving (L := L) (mem := mem) (msd := msd) (o := o) hS hi hv _ (inn t) h (Nat.le_refl _)
  exact ⟨replies, fate, N, h1, fun fuel hf stopped rounds hr => h2 fuel hf stopped rounds 0 t hr rfl⟩

/-- C199 for methods without containers and `binary` in their arguments. -/
theorem C199_direct_partial {σ η : Type} {T : Transport σ} {inn out buf : σ → Bytes} {S : Schema} (L : FloatLib) (mem : List Nat → Nat)
    (msd : Int) {sv : Service η} {i : Bin} (o : Bin) (E : Endpoint T inn out buf) (hS : S.Ok) (hi : i.checkReadLength = false)
    (hv : sv.Able S) (hd : ∀ m ∈ sv.methods, S.Direct m.args) (h : η) (t : σ) :
    ∃ replies h' N, Serving S L mem msd i sv o.strictWrite h (inn t) replies (.ended h') ∧
      ∀ fuel, N ≤ fuel → ∀ stopped rounds, (inn t).length < rounds → ∃ t',
        (requestLoop (process binary binary S L mem msd fuel sv) stopped rounds 0).run T ⟨i, o, h⟩ t = (.ok ((), ⟨i, o, h'⟩), t') ∧
          out t' ++ buf t' = out t ++ buf t ++ replies.flatten := by
  obtain ⟨replies, fate, N, h1, h2⟩ := C199_partial L mem msd o E hS hi hv h t
  obtain ⟨h', rfl⟩ := h1.ends hd
  exact ⟨replies, h', N, h1, h2⟩

theorem put_able : putService.Able listSchema := by
  intro m hm
  rw [List.mem_singleton.1 hm, if_neg (by decide)]
  refine ⟨⟨fun x hx => (by cases hx), fun x hx => (by cases hx)⟩, fun h as r h' hh => ?_⟩
  obtain rfl : [] = r := congrArg (·.1.1) hh
  exact ⟨Fine.struct 1 0 _ rfl (fun x hx => (by cases hx)) (fun x hx => (by cases hx)) (fun x hx => (by cases hx)),
    fun x hx => (by cases hx)⟩

/-- C199 does not hold: a list in the arguments is enough to take the server down. -/
theorem C199_violated : ¬ C199_statement := by
  intro hc
  obtain ⟨inp, ha⟩ := C124_attack (sv := putService) (m := putMethod) listSchema_ok rfl (by decide) put_not_direct noFloats (fun _ => 0) 64
  obtain ⟨N, ha⟩ := ha ⟨Bin.default, Bin.default, ()⟩ rfl
  obtain ⟨replies, h', M, -, h2⟩ := hc (S := listSchema) (sv := putService) (i := Bin.default) noFloats (fun _ => 0) 64 Bin.default pipe_server
    listSchema_ok rfl put_able () (inp, [])
  obtain ⟨t, ha⟩ := ha (max N M) (Nat.le_max_left ..) []
  obtain ⟨t', h2, -⟩ := h2 (max N M) (Nat.le_max_right ..) (fun _ => false) (inp.length + 1) (Nat.lt_succ_self _)
  rw [requestLoop, P.run_bind, ha] at h2
  simp [andThen] at h2

/-! The answers are determined by the input. -/

section
variable {S : Schema} {L : FloatLib} {mem : List Nat → Nat} {msd : Int} {i : Bin} {η : Type} {sv : Service η} {strict : Bool}

theorem Headed.unique (hi : i.checkReadLength = false) {inp name name' body body' : Bytes} {q q' : I32}
    (h : Headed i.strictRead inp name q body) (h' : Headed i.strictRead inp name' q' body') : name = name' ∧ q = q' ∧ body = body' := by
  obtain ⟨hd, ty, e, hm⟩ := h
  obtain ⟨hd', ty', e', hm'⟩ := h'
  have a := (C191_message i hi inp name ty q i body).2 ⟨rfl, hd, e, hm⟩
  have b := (C191_message i hi inp name' ty' q' i body').2 ⟨rfl, hd', e', hm'⟩
  rw [a] at b
  simp only [Prod.mk.injEq, Res.ok.injEq, and_true] at b
  exact ⟨b.1.1, b.1.2.2, b.2⟩

theorem Makes.unique {sd : StructDef} {inp : Bytes} {as as' : Attrs} {e e' : GoErr} {rest rest' : Bytes}
    (h : Makes S L mem msd i sd inp as e rest) (h' : Makes S L mem msd i sd inp as' e' rest') : as = as' ∧ e = e' ∧ rest = rest' := by
  obtain ⟨N, h⟩ := h
  obtain ⟨N', h'⟩ := h'
  have a := h (max N N') (Nat.le_max_left ..)
  rw [h' _ (Nat.le_max_right ..)] at a
  simp only [Prod.mk.injEq, Res.ok.injEq, and_true] at a
  exact ⟨a.1.1.symm, a.1.2.symm, a.2.symm⟩

theorem Makes.not_breaks {sd : StructDef} {inp : Bytes} {as : Attrs} {e : GoErr} {rest : Bytes}
    (h : Makes S L mem msd i sd inp as e rest) : ¬ Breaks S L mem msd i sd inp := by
  rintro ⟨N', h'⟩
  obtain ⟨N, h⟩ := h
  have a := h' (max N N') (Nat.le_max_right ..)
  rw [h _ (Nat.le_max_left ..)] at a
  cases a

/-- What becomes of a connection is settled by the bytes that arrive. -/
theorem C199_settled (hi : i.checkReadLength = false) {h : η} {inp : Bytes} {replies replies' : List Bytes} {fate fate' : Fate η}
    (hs : Serving S L mem msd i sv strict h inp replies fate) (hs' : Serving S L mem msd i sv strict h inp replies' fate') :
    fate = fate' ∧ replies.length = replies'.length := by
  have unk : ∀ {name m}, sv.find name = some m → (∀ m ∈ sv.methods, m.name ≠ name) → False := fun hf hu =>
    hu _ (List.mem_of_find?_eq_some hf) (Service.find_name hf)
  induction hs generalizing replies' fate' with
  | silent no => cases hs' with
    | silent => exact ⟨rfl, rfl⟩
    | reply hd | oneway hd | failed hd | malformed hd | unknown hd | broken hd => exact (no _ _ _ hd).elim
  | reply hd kn tw ar run _ _ ih => cases hs' with
    | silent no => exact (no _ _ _ hd).elim
    | reply hd' kn' _ ar' run' _ next' =>
      obtain ⟨rfl, rfl, rfl⟩ := hd.unique hi hd'
      cases kn.symm.trans kn'
      obtain ⟨rfl, -, rfl⟩ := ar.unique ar'
      cases run.symm.trans run'
      obtain ⟨a, b⟩ := ih next'
      exact ⟨a, by simp only [List.length_cons, b]⟩
    | oneway hd' kn' tw' =>
      obtain ⟨rfl, rfl, rfl⟩ := hd.unique hi hd'
      cases kn.symm.trans kn'
      cases tw.symm.trans tw'
    | failed hd' kn' ar' run' =>
      obtain ⟨rfl, rfl, rfl⟩ := hd.unique hi hd'
      cases kn.symm.trans kn'
      obtain ⟨rfl, -, rfl⟩ := ar.unique ar'
      cases run.symm.trans run'
    | malformed hd' kn' ar' =>
      obtain ⟨rfl, rfl, rfl⟩ := hd.unique hi hd'
      cases kn.symm.trans kn'
      cases (ar.unique ar').2.1
    | unknown hd' un =>
      obtain ⟨rfl, rfl, rfl⟩ := hd.unique hi hd'
      exact (unk kn un).elim
    | broken hd' kn' ar' =>
      obtain ⟨rfl, rfl, rfl⟩ := hd.unique hi hd'
      cases kn.symm.trans kn'
      exact absurd ar' ar.not_breaks
  | oneway hd kn tw ar run _ ih => cases hs' with
    | silent no => exact (no _ _ _ hd).elim
    | reply hd' kn' tw' =>
      obtain ⟨rfl, rfl, rfl⟩ := hd.unique hi hd'
      cases kn.symm.trans kn'
      cases tw.symm.trans tw'
    | oneway hd' kn' _ ar' run' next' =>
      obtain ⟨rfl, rfl, rfl⟩ := hd.unique hi hd'
      cases kn.symm.trans kn'
      obtain ⟨rfl, -, rfl⟩ := ar.unique ar'
      cases run.symm.trans run'
      obtain ⟨a, b⟩ := ih next'
      exact ⟨a, by simp only [List.length_cons, b]⟩
    | failed hd' kn' ar' run' =>
      obtain ⟨rfl, rfl, rfl⟩ := hd.unique hi hd'
      cases kn.symm.trans kn'
      obtain ⟨rfl, -, rfl⟩ := ar.unique ar'
      cases run.symm.trans run'
    | malformed hd' kn' ar' =>
      obtain ⟨rfl, rfl, rfl⟩ := hd.unique hi hd'
      cases kn.symm.trans kn'
      cases (ar.unique ar').2.1
    | unknown hd' un =>
      obtain ⟨rfl, rfl, rfl⟩ := hd.unique hi hd'
      exact (unk kn un).elim
    | broken hd' kn' ar' =>
      obtain ⟨rfl, rfl, rfl⟩ := hd.unique hi hd'
      cases kn.symm.trans kn'
      exact absurd ar' ar.not_breaks
  | failed hd kn ar run => cases hs' with
    | silent no => exact (no _ _ _ hd).elim
    | reply hd' kn' _ ar' run' | oneway hd' kn' _ ar' run' =>
      obtain ⟨rfl, rfl, rfl⟩ := hd.unique hi hd'
      cases kn.symm.trans kn'
      obtain ⟨rfl, -, rfl⟩ := ar.unique ar'
      cases run.symm.trans run'
    | failed hd' kn' ar' run' =>
      obtain ⟨rfl, rfl, rfl⟩ := hd.unique hi hd'
      cases kn.symm.trans kn'
      obtain ⟨rfl, -, rfl⟩ := ar.unique ar'
      cases run.symm.trans run'
      exact ⟨rfl, rfl⟩
    | malformed hd' kn' ar' =>
      obtain ⟨rfl, rfl, rfl⟩ := hd.unique hi hd'
      cases kn.symm.trans kn'
      cases (ar.unique ar').2.1
    | unknown hd' un =>
      obtain ⟨rfl, rfl, rfl⟩ := hd.unique hi hd'
      exact (unk kn un).elim
    | broken hd' kn' ar' =>
      obtain ⟨rfl, rfl, rfl⟩ := hd.unique hi hd'
      cases kn.symm.trans kn'
      exact absurd ar' ar.not_breaks
  | malformed hd kn ar => cases hs' with
    | silent no => exact (no _ _ _ hd).elim
    | reply hd' kn' _ ar' | oneway hd' kn' _ ar' | failed hd' kn' ar' =>
      obtain ⟨rfl, rfl, rfl⟩ := hd.unique hi hd'
      cases kn.symm.trans kn'
      cases (ar.unique ar').2.1
    | malformed => exact ⟨rfl, rfl⟩
    | unknown hd' un =>
      obtain ⟨rfl, rfl, rfl⟩ := hd.unique hi hd'
      exact (unk kn un).elim
    | broken hd' kn' ar' =>
      obtain ⟨rfl, rfl, rfl⟩ := hd.unique hi hd'
      cases kn.symm.trans kn'
      exact absurd ar' ar.not_breaks
  | unknown hd un => cases hs' with
    | silent no => exact (no _ _ _ hd).elim
    | reply hd' kn' | oneway hd' kn' | failed hd' kn' | malformed hd' kn' | broken hd' kn' =>
      obtain ⟨rfl, rfl, rfl⟩ := hd.unique hi hd'
      exact (unk kn' un).elim
    | unknown => exact ⟨rfl, rfl⟩
  | broken hd kn ar => cases hs' with
    | silent no => exact (no _ _ _ hd).elim
    | reply hd' kn' _ ar' | oneway hd' kn' _ ar' | failed hd' kn' ar' | malformed hd' kn' ar' =>
      obtain ⟨rfl, rfl, rfl⟩ := hd.unique hi hd'
      cases kn.symm.trans kn'
      exact absurd ar ar'.not_breaks
    | unknown hd' un =>
      obtain ⟨rfl, rfl, rfl⟩ := hd.unique hi hd'
      exact (unk kn un).elim
    | broken => exact ⟨rfl, rfl⟩

/-- There are not more answers than one for every nine bytes. -/
theorem C199_count (hi : i.checkReadLength = false) {h : η} {inp : Bytes} {replies : List Bytes} {fate : Fate η}
    (hs : Serving S L mem msd i sv strict h inp replies fate) : 9 * replies.length ≤ inp.length := by
  have key : ∀ {inp name body : Bytes} {q : I32}, Headed i.strictRead inp name q body → body.length + 9 ≤ inp.length := by
    rintro inp name body q ⟨hd, ty, rfl, ⟨x, y, a, -, ⟨n, -, rfl⟩, rfl⟩ | ⟨-, -, y, -, rfl⟩⟩
    · simp only [List.length_append, be_length, List.length_cons, List.length_nil]; omega
    · simp only [List.length_append, be_length, List.length_cons, List.length_nil]; omega
  have less : ∀ {sd : StructDef} {body rest : Bytes} {as : Attrs} {e : GoErr}, Makes S L mem msd i sd body as e rest → rest.length ≤ body.length := by
    intro sd body rest as e hm
    rcases makes_or_breaks (S := S) (L := L) (mem := mem) (msd := msd) hi sd body with ⟨as', e', rest', hm', hl⟩ | hb
    · rw [(hm.unique hm').2.2]; exact hl
    · exact absurd hb hm.not_breaks
  induction hs with
  | silent => simp
  | reply hd _ _ ar _ _ _ ih | oneway hd _ _ ar _ _ ih =>
    have := key hd; have := less ar
    simp only [List.length_cons]; omega
  | failed hd | malformed hd | unknown hd =>
    have := key hd
    simp only [List.length_cons, List.length_nil]; omega
  | broken => simp

end

theorem sum_able : sumService.Able sumSchema := by
  intro m hm
  simp only [sumService, List.mem_cons, List.not_mem_nil, or_false] at hm
  rcases hm with rfl | rfl
  · rw [if_neg (by decide)]
    refine ⟨⟨fun x hx => by rw [List.mem_singleton.1 hx], fun x hx h => absurd (by rw [List.mem_singleton.1 hx]) h⟩, fun h as r h' hh => ?_⟩
    simp only [sumService, addMethod, Bool.false_eq_true, if_false, Prod.mk.injEq, and_true] at hh
    obtain ⟨rfl, rfl⟩ := hh
    exact ⟨sum_result _, fun a ha b hb hne => absurd (by rw [List.mem_singleton.1 ha, List.mem_singleton.1 hb]) hne⟩
  · rw [if_pos (by decide)]; rfl

/-- The hypotheses are met. -/
example (t : Bytes × Bytes) := C199_direct_partial (S := sumSchema) (sv := sumService) (i := Bin.default) noFloats (fun _ => 0) 64 Bin.default
  pipe_server sumSchema_ok rfl sum_able sum_direct 0 t
example (t : Bytes × Bytes) := C199_partial (S := listSchema) (sv := putService) (i := Bin.default) noFloats (fun _ => 0) 64 Bin.default
  pipe_server listSchema_ok rfl put_able () t

/-- A request, then one whose argument is cut short: one reply and one refusal. -/
example : ((requestLoop (process binary binary sumSchema noFloats (fun _ => 0) 64 20 sumService) (fun _ => false) 9 0).run pipeServer
    ⟨Bin.default, Bin.default, 7⟩ ((addAsk 1).bytes ++ BinarySpec.message true (ascii "add") ONEWAY 2 ++ [8, 0, 1, 0], [])).1 =
      .ok ((), ⟨Bin.default, Bin.default, 12⟩) := by kernel_rfl

end Thrift
