import Verif.Lemmas.JsonService
import Verif.Props.Json
import Verif.Props.Service
import Verif.Props.GeneratedJson
import Verif.Lemmas.KernelRfl
/-!
# Services over the tagged JSON protocol (C147)
-/

namespace Thrift
open JsonSpec

/-- The message fits into the reader's buffer. -/
def fitsBuffer (doc : Bytes) : Bool := doc.length ≤ 4096

/-- C147.  Every conversation over the tagged JSON protocol whose messages fit into
the reader's buffer is answered: the handler gets the arguments of every call and
the client its result, or its error, which ends the conversation. -/
def C147_statement : Prop :=
  ∀ {η : Type} (E : JsonEnv (List Bytes)), E.T = messages → Lawful E.L → 4104 < E.fuel → ∀ (S : Schema) (L : FloatLib) (mem : List Nat → Nat)
    (msd : Int), S.Ok → ∀ (sv : Service η) (cs : List (Method × Attrs)) (h : η), (∀ c ∈ cs, JsonSound S sv c.1 c.2) →
    ∃ N, ∀ fuel, N ≤ fuel → ∃ rs e,
      converse (tjson E) S L mem msd fuel sv (fun _ => fitsBuffer) cs (Client.ofFactory (Json.new [])) ⟨Json.new [], Json.new [], h⟩ = some (rs, e) ∧
        Conversed E.L S sv fitsBuffer h cs rs e

/-- C147, proved for schemas without binary and i16 members, and for conversations
that end at the first message whose struct is empty: a call without arguments, or
a reply without a result.  For those the reader waits for more. -/
theorem C147_partial {η : Type} (E : JsonEnv (List Bytes)) (hT : E.T = messages) (hL : Lawful E.L) (hF : 4104 < E.fuel) (S : Schema)
    (L : FloatLib) (mem : List Nat → Nat) (msd : Int) (hS : S.Ok) (hB : ∀ k, ∀ m ∈ (S.structs k).members, JsonT.Taggable m.ty)
    (sv : Service η) (cs : List (Method × Attrs)) (h : η) (hs : ∀ c ∈ cs, JsonSound S sv c.1 c.2) :
    ∃ N, ∀ fuel, N ≤ fuel → ∃ rs e,
      converse (tjson E) S L mem msd fuel sv (fun _ => fitsReader) cs (Client.ofFactory (Json.new [])) ⟨Json.new [], Json.new [], h⟩ = some (rs, e) ∧
        Conversed E.L S sv fitsReader h cs rs e :=
  conversed hT hL hF hS hB sv cs h 0 hs

/-- A connection for JSON messages. -/
def messagesEnv : JsonEnv (List Bytes) := ⟨messages, JsonPlain.lib, fun _ => List.replicate 8 0, 5000⟩

theorem add_jsonSound (x : I32) : JsonSound sumSchema sumService addMethod [(1, .int32 x)] where
  known := rfl
  name := utf8_low (by decide)
  twoway := rfl
  args := sum_args x
  text := .struct _ _ _ _ _ _ (legible_attrs fun x hx => by obtain rfl := List.mem_singleton.1 hx; exact .int32 _)
  result := sum_resultDef
  fine h as r h' hh := by
    simp only [sumService, addMethod, Bool.false_eq_true, if_false, Prod.mk.injEq, and_true] at hh
    rw [← hh.1]
    exact ⟨sum_result _, sum_one _,
      .struct _ _ _ _ _ _ (legible_attrs fun x hx => by obtain rfl := List.mem_singleton.1 hx; exact .int32 _)⟩
  message h as r e h' hh := by simp [sumService] at hh

theorem sum_taggable : ∀ k, ∀ m ∈ (sumSchema.structs k).members, JsonT.Taggable m.ty := by
  intro k m hm
  simp only [sumSchema] at hm
  split at hm
  · obtain rfl := List.mem_singleton.1 hm
    exact ⟨nofun, trivial, trivial⟩
  · split at hm
    · obtain rfl := List.mem_singleton.1 hm
      exact ⟨nofun, trivial, trivial⟩
    · exact absurd hm List.not_mem_nil

/-- The hypotheses of `C147_partial` are met. -/
example (x y : I32) := C147_partial messagesEnv rfl JsonPlain.lawful (by decide) sumSchema noFloats (fun _ => 0) 64 sumSchema_ok
  sum_taggable sumService [(addMethod, [(1, .int32 x)]), (addMethod, [(1, .int32 y)])] 0 (by
    intro c hc
    simp only [List.mem_cons, List.not_mem_nil, or_false] at hc
    rcases hc with rfl | rfl <;> exact add_jsonSound _)

/-- Two calls and their answers. -/
example : converse (tjson messagesEnv) sumSchema noFloats (fun _ => 0) 64 20 sumService (fun _ => fitsReader)
    [(addMethod, [(1, .int32 5)]), (addMethod, [(1, .int32 6)])] (Client.ofFactory (Json.new [])) ⟨Json.new [], Json.new [], 1⟩ =
    some ([(some [(0, .int32 6)], none), (some [(0, .int32 12)], none)], .finished) := by kernel_rfl

/-- A handler that fails. -/
example : (converse (tjson messagesEnv) sumSchema noFloats (fun _ => 0) 64 20 failService (fun _ => fitsReader)
    [(addMethod, [(1, .int32 5)]), (addMethod, [(1, .int32 6)])] (Client.ofFactory (Json.new [])) ⟨Json.new [], Json.new [], ()⟩).map
      (fun x => (x.1.length, x.2)) = some (1, .refused) := by kernel_rfl

/-- A method without arguments. -/
def totalMethod : Method := ⟨ascii "total", 2, 1, false⟩
def totalService : Service I32 := ⟨[totalMethod], fun _ h _ => (([(0, .int32 h)], none), h)⟩

theorem C147_stuck (N : Nat) : converse (tjson messagesEnv) sumSchema noFloats (fun _ => 0) 64 (N + 10) totalService (fun _ => fitsBuffer)
    [(totalMethod, [])] (Client.ofFactory (Json.new [])) ⟨Json.new [], Json.new [], 1⟩ = none := by kernel_rfl

theorem total_sound : JsonSound sumSchema totalService totalMethod [] where
  known := rfl
  name := utf8_low (by decide)
  twoway := rfl
  args := Fine.struct 2 0 _ rfl (fun m hm => absurd hm List.not_mem_nil) (fun m hm => absurd hm List.not_mem_nil)
    (fun m hm => absurd hm List.not_mem_nil)
  text := .struct _ _ _ _ _ _ (legible_attrs fun x hx => absurd hx List.not_mem_nil)
  result := sum_resultDef
  fine h as r h' hh := by
    simp only [totalService, Prod.mk.injEq, and_true] at hh
    rw [← hh.1]
    exact ⟨sum_result _, sum_one _,
      .struct _ _ _ _ _ _ (legible_attrs fun x hx => by obtain rfl := List.mem_singleton.1 hx; exact .int32 _)⟩
  message h as r e h' hh := by simp [totalService] at hh

/-- A call without arguments is never answered: the server waits for more. -/
theorem C147_violated : ¬ C147_statement := by
  intro hs
  obtain ⟨N, hN⟩ := hs messagesEnv rfl JsonPlain.lawful (by decide) sumSchema noFloats (fun _ => 0) 64 sumSchema_ok totalService
    [(totalMethod, [])] 1 fun c hc => by obtain rfl := List.mem_singleton.1 hc; exact total_sound
  obtain ⟨rs, e, h, _⟩ := hN (N + 10) (by omega)
  rw [C147_stuck] at h
  exact nomatch h

/-- A method with an i16 argument. -/
def levelSchema : Schema where
  structs k := if k = 0 then ⟨ascii "args", [⟨ascii "x", 1, .i16, false, none, 0, true⟩]⟩
    else ⟨ascii "result", [⟨ascii "success", 0, .i32, false, none, 0, true⟩]⟩
  enumText _ _ := ascii "X"

theorem levelSchema_ok : levelSchema.Ok := by
  intro k
  simp only [levelSchema]
  split
  · exact ⟨by simp, by simp, by simp, by simp; decide⟩
  · exact ⟨by simp, by simp, by simp, by simp; decide⟩

def levelMethod : Method := ⟨ascii "level", 0, 1, false⟩
def levelService : Service I32 := ⟨[levelMethod], fun _ h _ => (([(0, .int32 h)], none), h)⟩

theorem C147_level (N : Nat) : (converse (tjson messagesEnv) levelSchema noFloats (fun _ => 0) 64 (N + 10) levelService (fun _ => fitsBuffer)
    [(levelMethod, [(1, .int16 5)])] (Client.ofFactory (Json.new [])) ⟨Json.new [], Json.new [], 1⟩).map (fun x => x.2) =
      some .refused := by kernel_rfl

theorem level_sound : JsonSound levelSchema levelService levelMethod [(1, .int16 5)] where
  known := rfl
  name := utf8_low (by decide)
  twoway := rfl
  args := by
    refine Fine.struct 0 0 _ rfl ?_ ?_ ?_
    · intro m hm; rw [List.mem_singleton.1 hm]; simp
    · intro m hm; rw [List.mem_singleton.1 hm]; simp
    · intro m hm _; rw [List.mem_singleton.1 hm]; exact Fine.i16 _
  text := .struct _ _ _ _ _ _ (legible_attrs fun x hx => by obtain rfl := List.mem_singleton.1 hx; exact .int16 _)
  result := {
    plain := fun m hm => by rw [List.mem_singleton.1 hm]
    exceptions := fun m hm h => by rw [List.mem_singleton.1 hm] at h; exact absurd rfl h }
  fine h as r h' hh := by
    simp only [levelService, Prod.mk.injEq, and_true] at hh
    rw [← hh.1]
    refine ⟨?_, ?_, .struct _ _ _ _ _ _ (legible_attrs fun x hx => by obtain rfl := List.mem_singleton.1 hx; exact .int32 _)⟩
    · refine Fine.struct 1 0 _ rfl ?_ ?_ ?_
      · intro m hm; rw [List.mem_singleton.1 hm]; simp
      · intro m hm; rw [List.mem_singleton.1 hm]; simp
      · intro m hm _; rw [List.mem_singleton.1 hm]; exact Fine.i32 _
    · intro a ha b hb h
      rw [List.mem_singleton.1 ha, List.mem_singleton.1 hb] at h
      exact absurd rfl h
  message h as r e h' hh := by simp [levelService] at hh

/-- A call with an i16 argument is refused although the handler refuses nothing:
the server does not understand the type name that the client writes. -/
theorem C147_i16_violated : ¬ C147_statement := by
  intro hs
  obtain ⟨N, hN⟩ := hs messagesEnv rfl JsonPlain.lawful (by decide) levelSchema noFloats (fun _ => 0) 64 levelSchema_ok levelService
    [(levelMethod, [(1, .int16 5)])] 1 fun c hc => by obtain rfl := List.mem_singleton.1 hc; exact level_sound
  obtain ⟨rs, e, h, hc⟩ := hN (N + 10) (by omega)
  have hl := C147_level N
  rw [h] at hl
  obtain rfl : e = .refused := Option.some.inj hl
  cases hc with
  | answered _ _ _ rest => cases rest
  | refused _ run _ => simp [levelService] at run

end Thrift
