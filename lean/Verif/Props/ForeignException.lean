import Verif.Props.Exceptions
import Verif.Lemmas.BinaryService
import Verif.Lemmas.Call
/-!
# Exceptions of servers written by others

A server in any language may answer a call with an application exception.
-/

namespace Thrift

/-- C162.  Whatever the name and number of the reply, and whatever else the exception
holds, the caller gets its type as a signed number and its message, and the
connection is left at the end of the reply. -/
theorem C162_exception (S : Schema) (L : FloatLib) (mem : List Nat → Nat) (msd : Int) (m : Method) (c : Client Bin) (i : Bin)
    (hi : c.input = some i) (hr : i.checkReadLength = false) (strict : Bool) (hs : strict = true ∨ i.strictRead = false)
    (name : Bytes) (hn : name.length < 2 ^ 31) (q : I32) (code : I32) (text : Bytes) (hm : text.length < 2 ^ 31)
    (pre mid post : List (I16 × Val))
    (hx : ∀ e ∈ pre ++ mid ++ post, e.2.WF ∧ ¬ (e.1 = 1 ∧ e.2.type = TT.STRING) ∧ ¬ (e.1 = 2 ∧ e.2.type = TT.I32)) :
    ∃ N, ∀ fuel, N ≤ fuel → ∀ after,
      (Client.recv binary S L mem msd fuel m).run memory c (BinarySpec.message strict name EXCEPTION q ++
        BinarySpec.encode (.struct (Fields.ofList (pre ++ [(1, .str text)] ++ mid ++ [(2, .i32 code)] ++ post))) ++ after) =
        (.ok ((none, some ⟨.application, code.toInt, text⟩), c), after) := by
  obtain ⟨N, h⟩ := C49_extra_fields ⟨code, text⟩ pre mid post msd i hr hm hx
  refine ⟨N, fun fuel hf after => ?_⟩
  have e1 := (Bin.reads_header strict name EXCEPTION q hn (by decide) i hr hs).memory
    (BinarySpec.encode (.struct (Fields.ofList (pre ++ [(1, .str text)] ++ mid ++ [(2, .i32 code)] ++ post))) ++ after)
  have e2 := h fuel hf after
  have e3 := (Bin.runs_end i).memory after
  rw [List.nil_append] at e3
  have r0 (x : Bytes) : (Client.ensureInput : P (Client Bin) Unit).run memory c x = (.ok ((), c), x) := by
    show (Client.ensureInput c : Prog _).run memory x = _
    simp only [Client.ensureInput, hi]; rfl
  have hc : ({ c with input := some i } : Client Bin) = c := by rw [← hi]
  unfold Client.recv
  rw [List.append_assoc, P.run_bind, r0, andThen_ok, P.run_bind, Client.run_inp _ _ i hi, e1]
  simp only [putBack_ok, andThen_ok, Option.isSome_none, Bool.false_eq_true, if_false, if_true, P.run_bind]
  rw [Client.run_inp _ _ i rfl, e2]
  simp only [putBack_ok, andThen_ok, Option.isSome_none, Bool.false_eq_true, if_false, P.run_bind]
  rw [Client.run_inp _ _ i rfl, e3]
  simp only [putBack_ok, andThen_ok, Option.isSome_none, Bool.false_eq_true, if_false, hc]
  rfl

/-- A negative type, with a field that the client does not know. -/
example (S : Schema) (L : FloatLib) (mem : List Nat → Nat) (m : Method) : ∃ N, ∀ fuel, N ≤ fuel → ∀ after,
    (Client.recv binary S L mem 64 fuel m).run memory ⟨none, some Bin.default, none, 3⟩
      (BinarySpec.message true (ascii "f") EXCEPTION 8 ++
        BinarySpec.encode (.struct (Fields.ofList ([(9, .bool true)] ++ [(1, .str (ascii "m"))] ++ [] ++ [(2, .i32 (-1))] ++ []))) ++
        after) =
      (.ok ((none, some ⟨.application, -1, ascii "m"⟩), ⟨none, some Bin.default, none, 3⟩), after) :=
  C162_exception S L mem 64 m _ Bin.default rfl rfl true (.inl rfl) _ (by decide) 8 (-1) _ (by decide) [(9, .bool true)] [] [] (by
    intro e he
    simp only [List.append_nil, List.mem_cons, List.not_mem_nil, or_false] at he
    subst he
    exact ⟨trivial, by decide, by decide⟩)

end Thrift
