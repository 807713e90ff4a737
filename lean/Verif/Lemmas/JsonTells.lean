import Verif.Lemmas.Tells
import Verif.Model.Json
/-!
# Write failures in the JSON protocols
-/

namespace Thrift
namespace JsonT
open JsonProtocol

variable {τ : Type} (E : JsonEnv τ)

theorem still_dumpTop : P.Still (dumpTop : P (Json τ) JCtx) := by
  intro s; unfold dumpTop; split <;> trivial

theorem t_post : P.Tells id (outputPostValue : P (Json τ) GoErr) := by
  intro s; unfold outputPostValue; split <;> trivial

theorem t_put (bs : Bytes) : P.Tells id (put bs : P (Json τ) GoErr) :=
  P.Tells.bind (P.Tells.write bs) (fun _ h => P.Fails.pure (fromOs_isSome h)) fun _ => P.Tells.pure _

theorem t_pre : P.Tells id (outputPreValue : P (Json τ) GoErr) := by
  refine P.Tells.still still_dumpTop fun c => ?_
  cases c <;> first | exact t_put _ | exact P.Tells.pure _

theorem t_data (v : Bytes) : P.Tells id (outputStringData v : P (Json τ) GoErr) := by
  unfold outputStringData
  refine P.Tells.ite (P.Tells.pure _) (P.Tells.bind (P.Tells.write v) (fun x h => ?_) fun x => ?_)
  · show P.Fails id (if x.2.isSome = true then _ else _)
    rw [if_pos h]
    exact P.Fails.pure (fromOs_isSome h)
  · exact P.Tells.ite (P.Tells.pure _) (P.Tells.ite (P.Tells.pure _) (P.Tells.pure _))

theorem t_text (q : Bytes → Bytes) (v : Bytes) : P.Tells id (outputText q v : P (Json τ) GoErr) :=
  P.Tells.check t_pre (P.Tells.still still_dumpTop fun _ => P.Tells.check (t_data _) t_post)

theorem t_begin (ch : Byte) (c : JCtx) : P.Tells id (outputBegin ch c : P (Json τ) GoErr) :=
  P.Tells.check t_pre (P.Tells.check (t_put _) (P.Tells.still (P.Still.modify _) fun _ => P.Tells.pure _))

theorem t_end (ch : Byte) : P.Tells id (outputEnd ch : P (Json τ) GoErr) :=
  P.Tells.check (t_put _) (P.Tells.still still_dumpTop fun _ => P.Tells.still (P.Still.modify _) fun _ => t_post)

theorem t_double (v : F64) : P.Tells id (outputF64 E v) := by
  unfold outputF64
  exact P.Tells.ite (t_text _ _) (P.Tells.ite (t_text _ _) (P.Tells.ite (t_text _ _) (t_text _ _)))

theorem t_elem (t : TType) (n : Int) : P.Tells id (outputElemListBegin E t n) :=
  P.Tells.check (t_begin _ _) (P.Tells.check (t_text _ _) (t_text _ _))

theorem t_b64write : ∀ (fuel : Nat) (v : Bytes), P.Tells (·.2) (b64write fuel v : P (Json τ) (Bytes × GoErr))
  | 0, v => P.Tells.pure _
  | fuel + 1, v => by
    unfold b64write
    refine P.Tells.ite (P.Tells.pure _) (P.Tells.bind (P.Tells.write _) (fun x h => ?_) fun x => ?_)
    · show P.Fails (fun y : Bytes × GoErr => y.2) (if x.2.isSome = true then _ else _)
      rw [if_pos h]
      exact P.Fails.pure h
    · exact P.Tells.ite (P.Tells.pure _) (t_b64write fuel _)

theorem t_b64close (v : Bytes) : P.Tells id (b64close v : P (Json τ) GoErr) := by
  unfold b64close
  exact P.Tells.ite (P.Tells.pure _) (P.Tells.bind (P.Tells.write _) (fun x h => P.Fails.pure h) fun x => P.Tells.pure _)

theorem t_binary (v : Bytes) : P.Tells id (writeBinary v : P (Json τ) GoErr) := by
  unfold writeBinary
  refine P.Tells.check t_pre (P.Tells.check (t_put _) (P.Tells.bind (t_b64write _ _) (fun x h => ?_) fun x => ?_))
  · show P.Fails id (if x.2.isSome = true then _ else _)
    rw [if_pos h]
    exact P.Fails.pure (fromOs_isSome h)
  · refine P.Tells.ite (P.Tells.pure _) (P.Tells.bind (t_b64close _) (fun e h => ?_) fun e => ?_)
    · show P.Fails id (if e.isSome = true then _ else _)
      rw [if_pos (show e.isSome = true from h)]
      exact P.Fails.pure (fromOs_isSome h)
    · exact P.Tells.ite (P.Tells.pure _) (P.Tells.check (t_put _) t_post)

theorem simple_tells : (simpleJson E).Tells where
  messageBegin _ _ _ := P.Tells.check (t_begin _ _) (P.Tells.check (t_text _ _) (P.Tells.check (t_text _ _) (t_text _ _)))
  messageEnd := t_end _
  structBegin _ := t_begin _ _
  structEnd := t_end _
  fieldBegin _ _ _ := t_text _ _
  fieldEnd := .pure _
  fieldStop := .pure _
  mapBegin _ _ _ := P.Tells.check (t_begin _ _) (P.Tells.check (t_text _ _) (P.Tells.check (t_text _ _) (t_text _ _)))
  mapEnd := t_end _
  listBegin := t_elem E
  listEnd := t_end _
  setBegin := t_elem E
  setEnd := t_end _
  bool _ := t_text _ _
  byte _ := t_text _ _
  i16 _ := t_text _ _
  i32 _ := t_text _ _
  i64 _ := t_text _ _
  double := t_double E
  string _ := t_text _ _
  binary := t_binary
  flush := P.Tells.bind P.Tells.flush (fun _ h => P.Fails.pure (fromOs_isSome h)) fun _ => P.Tells.pure _

/-- Every write call of the tagged protocol but `WriteBinary`. -/
theorem tagged_tells : ({ tjson E with writeBinary := writeBinary } : Proto (Json τ)).Tells :=
  { simple_tells E with
    messageBegin := fun _ _ _ => P.Tells.check (t_begin _ _) (P.Tells.check (t_text _ _) (P.Tells.check (t_text _ _)
      (P.Tells.check (t_text _ _) (t_text _ _))))
    fieldBegin := fun _ _ _ => P.Tells.check (t_text _ _) (P.Tells.check (t_begin _ _) (t_text _ _))
    fieldEnd := t_end _
    mapBegin := fun _ _ _ => P.Tells.check (t_begin _ _) (P.Tells.check (t_text _ _) (P.Tells.check (t_text _ _) (t_text _ _))) }

end JsonT
end Thrift
