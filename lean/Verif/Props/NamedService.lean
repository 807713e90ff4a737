import Verif.Lemmas.NamedService
import Verif.Props.JsonService
/-!
# Services over the simple JSON protocol (C198)
-/

namespace Thrift
open JsonSpec

/-- C198.  Every conversation over the simple JSON protocol whose messages fit into
the reader's buffer is answered: the handler gets the arguments of every call and
the client its result, or its error, which ends the conversation. -/
def C198_statement : Prop :=
  ∀ {η : Type} (E : JsonEnv (List Bytes)), E.T = messages → Lawful E.L → 4104 < E.fuel → ∀ (S : Schema) (L : FloatLib) (mem : List Nat → Nat)
    (msd : Int), S.Ok → NamesAreText S → ∀ (sv : Service η) (cs : List (Method × Attrs)) (h : η), (∀ c ∈ cs, JsonSound S sv c.1 c.2) →
    ∃ N, ∀ fuel, N ≤ fuel → ∃ rs e,
      converse (simpleJson E) S L mem msd fuel sv (fun _ => fitsBuffer) cs (Client.ofFactory (Json.newSimple []))
          ⟨Json.newSimple [], Json.newSimple [], h⟩ = some (rs, e) ∧
        NConversed E.L S sv (fun _ => fitsBuffer) (fun m r x => Returned (S.structs m.result) m r (some x)) h cs rs e

/-- C198, proved for schemas whose containers have no binary elements, and for
conversations that end at the first request or reply whose struct is empty or whose
last value is a single digit: for those the reader waits for more.  A handler's error
never reaches the client; it gets an INVALID_DATA error of the protocol instead. -/
theorem C198_partial {η : Type} (E : JsonEnv (List Bytes)) (hT : E.T = messages) (hL : Lawful E.L) (hF : 4104 < E.fuel) (S : Schema)
    (L : FloatLib) (mem : List Nat → Nat) (msd : Int) (hS : S.Ok) (hN : NamesAreText S)
    (hb : ∀ k, ∀ m ∈ (S.structs k).members, NoBinaryElements m.ty) (sv : Service η) (cs : List (Method × Attrs)) (h : η)
    (hs : ∀ c ∈ cs, JsonSound S sv c.1 c.2) :
    ∃ N, ∀ fuel, N ≤ fuel → ∃ rs e,
      converse (simpleJson E) S L mem msd fuel sv fitsNamed cs (Client.ofFactory (Json.newSimple []))
          ⟨Json.newSimple [], Json.newSimple [], h⟩ = some (rs, e) ∧
        NConversed E.L S sv fitsNamed (fun _ _ _ res => res = (none, some JsonProtocol.invalid)) h cs rs e :=
  named_conversed hT hL hF hS (fun k m hm => ⟨hN k m hm, hb k m hm⟩) sv cs h 0 hs

theorem sum_names : NamesAreText sumSchema := by
  intro k m hm
  simp only [sumSchema] at hm
  split at hm
  · obtain rfl := List.mem_singleton.1 hm
    exact utf8_low (by decide)
  · split at hm
    · obtain rfl := List.mem_singleton.1 hm
      exact utf8_low (by decide)
    · exact absurd hm List.not_mem_nil

theorem sum_noBinary : ∀ k, ∀ m ∈ (sumSchema.structs k).members, NoBinaryElements m.ty := by
  intro k m hm
  simp only [sumSchema] at hm
  split at hm
  · obtain rfl := List.mem_singleton.1 hm
    trivial
  · split at hm
    · obtain rfl := List.mem_singleton.1 hm
      trivial
    · exact absurd hm List.not_mem_nil

/-- The hypotheses of `C198_partial` are met. -/
example (x y : I32) := C198_partial messagesEnv rfl JsonPlain.lawful (by decide) sumSchema noFloats (fun _ => 0) 64 sumSchema_ok
  sum_names sum_noBinary sumService [(addMethod, [(1, .int32 x)]), (addMethod, [(1, .int32 y)])] 0 (by
    intro c hc
    simp only [List.mem_cons, List.not_mem_nil, or_false] at hc
    rcases hc with rfl | rfl <;> exact add_jsonSound _)

/-- Two calls and their answers. -/
example : converse (simpleJson messagesEnv) sumSchema noFloats (fun _ => 0) 64 20 sumService fitsNamed
    [(addMethod, [(1, .int32 15)]), (addMethod, [(1, .int32 16)])] (Client.ofFactory (Json.newSimple []))
      ⟨Json.newSimple [], Json.newSimple [], 1⟩ =
    some ([(some [(0, .int32 16)], none), (some [(0, .int32 32)], none)], .finished) := by kernel_rfl

theorem C198_digit (N : Nat) : converse (simpleJson messagesEnv) sumSchema noFloats (fun _ => 0) 64 (N + 10) sumService (fun _ => fitsBuffer)
    [(addMethod, [(1, .int32 5)])] (Client.ofFactory (Json.newSimple [])) ⟨Json.newSimple [], Json.newSimple [], 1⟩ = none := by kernel_rfl

/-- A call whose last argument is a single digit is never answered: the server waits
for more. -/
theorem C198_violated : ¬ C198_statement := by
  intro hs
  obtain ⟨N, hN⟩ := hs messagesEnv rfl JsonPlain.lawful (by decide) sumSchema noFloats (fun _ => 0) 64 sumSchema_ok sum_names sumService
    [(addMethod, [(1, .int32 5)])] 1 fun c hc => by obtain rfl := List.mem_singleton.1 hc; exact add_jsonSound 5
  obtain ⟨rs, e, h, _⟩ := hN (N + 10) (by omega)
  rw [C198_digit] at h
  exact nomatch h

/-- C198 for conversations that end at the first message for which the reader would
wait. -/
def C198_fit_statement : Prop :=
  ∀ {η : Type} (E : JsonEnv (List Bytes)), E.T = messages → Lawful E.L → 4104 < E.fuel → ∀ (S : Schema) (L : FloatLib) (mem : List Nat → Nat)
    (msd : Int), S.Ok → NamesAreText S → ∀ (sv : Service η) (cs : List (Method × Attrs)) (h : η), (∀ c ∈ cs, JsonSound S sv c.1 c.2) →
    ∃ N, ∀ fuel, N ≤ fuel → ∃ rs e,
      converse (simpleJson E) S L mem msd fuel sv fitsNamed cs (Client.ofFactory (Json.newSimple []))
          ⟨Json.newSimple [], Json.newSimple [], h⟩ = some (rs, e) ∧
        NConversed E.L S sv fitsNamed (fun m r x => Returned (S.structs m.result) m r (some x)) h cs rs e

theorem C198_lost (N : Nat) : converse (simpleJson messagesEnv) sumSchema noFloats (fun _ => 0) 64 (N + 10) failService fitsNamed
    [(addMethod, [(1, .int32 15)])] (Client.ofFactory (Json.newSimple [])) ⟨Json.newSimple [], Json.newSimple [], ()⟩ =
      some ([(none, some JsonProtocol.invalid)], .refused) := by kernel_rfl

theorem fail_jsonSound (x : I32) : JsonSound sumSchema failService addMethod [(1, .int32 x)] where
  known := rfl
  name := utf8_low (by decide)
  twoway := rfl
  args := sum_args x
  text := .struct _ _ _ _ _ _ (legible_attrs fun x hx => by obtain rfl := List.mem_singleton.1 hx; exact .int32 _)
  result := sum_resultDef
  fine h as r h' hh := by simp [failService] at hh
  message h as r e h' hh := by
    simp only [failService, Prod.mk.injEq, Option.some.injEq, and_true] at hh
    rw [← hh.2]
    exact ⟨utf8_low (by decide), by decide⟩

/-- The error of a handler does not reach the client. -/
theorem C198_error_violated : ¬ C198_fit_statement := by
  intro hs
  obtain ⟨N, hN⟩ := hs messagesEnv rfl JsonPlain.lawful (by decide) sumSchema noFloats (fun _ => 0) 64 sumSchema_ok sum_names failService
    [(addMethod, [(1, .int32 15)])] () fun c hc => by obtain rfl := List.mem_singleton.1 hc; exact fail_jsonSound 15
  obtain ⟨rs, e, h, hc⟩ := hN (N + 10) (by omega)
  rw [C198_lost] at h
  simp only [Option.some.injEq, Prod.mk.injEq] at h
  obtain ⟨rfl, rfl⟩ := h
  cases hc with
  | refused args run ret =>
    simp only [failService, Prod.mk.injEq, Option.some.injEq, and_true] at run
    rw [← run.2, Returned, if_neg (by decide)] at ret
    simp only [Prod.mk.injEq, Option.some.injEq, true_and] at ret
    exact absurd (congrArg Err.kind ret) (by decide)
  | answered args run ret rest =>
    simp [failService] at run

end Thrift
