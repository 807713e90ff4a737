import Verif.Lemmas.JsonWrite
import Verif.Lemmas.KernelRfl
import Verif.Lemmas.JsonPlain
import Verif.Model.Binary
import Verif.Model.Compact
import Verif.Spec.Failures
/-!
# C100: short writes
-/

namespace Thrift

/-- The transport with a flag that is raised by every `Write` that takes less than it
was given and returns no error. -/
def shortWatch (T : Transport σ) : Transport (σ × Bool) where
  read n s := match T.read n s.1 with
    | (r, t) => (r, (t, s.2))
  write bs s := match T.write bs s.1 with
    | (.ok (n, e), t) => (.ok (n, e), (t, s.2 || (decide (n < bs.length) && e.isNone)))
    | (.panic, t) => (.panic, (t, s.2))
    | (.stuck, t) => (.stuck, (t, s.2))
  flush s := match T.flush s.1 with
    | (r, t) => (r, (t, s.2))

/-- A call that returns no error had all its bytes taken by the transport. -/
def Complete (m : P π GoErr) (s : π) : Prop :=
  ∀ {σ : Type} (T : Transport σ) (t t' : σ) (s' : π) (short : Bool), m.run (shortWatch T) s (t, false) = (.ok (none, s'), (t', short)) →
    short = false

/-- C100.  A write call of a protocol that returns no error had all its bytes taken
by the transport. -/
def C100_statement : Prop :=
  (∀ s c, Complete (binary.perform c) s) ∧ (∀ f s c, Complete ((compact f).perform c) s) ∧
  ∀ (τ : Type) (E : JsonEnv τ) s c, Complete ((simpleJson E).perform c) s ∧ Complete ((tjson E).perform c) s

/-- A transport that takes nothing and returns no error. -/
def deaf : Transport Unit where
  read _ s := (.ok ([], none), s)
  write _ s := (.ok (0, none), s)
  flush s := (.ok none, s)

/-- C100 does not hold: the number of bytes taken is not looked at. -/
theorem C100_violated : ¬ C100_statement := by
  intro h
  have := h.1 Bin.default (.i32 5) deaf () () Bin.default true rfl
  exact nomatch this

/-- Neither by the compact protocol. -/
theorem C100_compact_violated : ¬ C100_statement := by
  intro h
  have := h.2.1 10 Cmp.new (.byte 5) deaf () () Cmp.new true rfl
  exact nomatch this

/-- The contexts in which a value follows without a separator. -/
def JCtx.Bare : JCtx → Prop
  | .toplevel | .listFirst | .objectFirst => True
  | _ => False

/-- The calls that write one scalar. -/
def WriteCall.IsText : WriteCall → Prop
  | .bool _ | .byte _ | .i16 _ | .i32 _ | .i64 _ | .double _ | .string _ => True
  | _ => False

theorem osError_none {e : GoErr} (h : protocolFromOsError e = none) : e = none := by
  cases e with
  | none => rfl
  | some e =>
    simp only [protocolFromOsError] at h
    split at h <;> exact nomatch h

/-- The number of bytes taken is compared with the length of the text. -/
theorem complete_data {τ : Type} (v : Bytes) (s : Json τ) : Complete (JsonProtocol.outputStringData v) s := by
  intro σ T t t' s' short h
  unfold JsonProtocol.outputStringData at h
  by_cases hv : v = []
  · rw [if_pos hv] at h
    cases h
    rfl
  · rw [if_neg hv, P.run_bind, P.run_write] at h
    simp only [shortWatch] at h
    rcases hw : T.write v t with ⟨a | _ | _, t₁⟩
    · obtain ⟨n, e⟩ := a
      simp only [hw, andThen_ok] at h
      cases e with
      | some e =>
        simp only [Option.isSome_some, if_true, P.run_pure, Prod.mk.injEq, Res.ok.injEq] at h
        exact absurd (osError_none h.1.1) nofun
      | none =>
        simp only [Option.isSome_none, Bool.false_eq_true, if_false, P.run_ite, P.run_pure] at h
        split at h
        · simp only [Prod.mk.injEq, Res.ok.injEq] at h
          exact absurd (osError_none h.1.1) nofun
        · rename_i hn
          have hn : n = v.length := Decidable.not_not.1 hn
          simp only [Prod.mk.injEq] at h
          rw [← h.2.2, hn]
          simp
    · simp [hw] at h
    · simp [hw] at h

theorem complete_text {τ : Type} (q : Bytes → Bytes) (v : Bytes) (s : Json τ) {c : JCtx} {r : List JCtx} (hs : s.dump = c :: r) (hc : c.Bare) :
    Complete (JsonProtocol.outputText q v) s := by
  intro σ T t t' s' short h
  have hp : (JsonProtocol.outputPreValue : P (Json τ) GoErr).run (shortWatch T) s (t, false) = (.ok (none, s), (t, false)) := by
    have hd : (JsonProtocol.dumpTop : P (Json τ) JCtx).run (shortWatch T) s (t, false) = (.ok (c, s), (t, false)) := by
      simp [JsonProtocol.dumpTop, P.run, hs, Prog.run]
    unfold JsonProtocol.outputPreValue
    rw [P.run_bind, hd]
    cases c <;> first | rfl | exact False.elim hc
  have hd : (JsonProtocol.dumpTop : P (Json τ) JCtx).run (shortWatch T) s (t, false) = (.ok (c, s), (t, false)) := by
    simp [JsonProtocol.dumpTop, P.run, hs, Prog.run]
  unfold JsonProtocol.outputText at h
  rw [P.run_bind, hp, andThen_ok, P.run_ite, if_neg (by simp), P.run_bind, hd, andThen_ok, P.run_bind] at h
  rcases hr : (JsonProtocol.outputStringData (if JsonProtocol.JCtx.isKey c then q v else v)).run (shortWatch T) s (t, false) with
    ⟨⟨e, s₁⟩ | _ | _, t₁, b⟩
  · rw [hr, andThen_ok, P.run_ite] at h
    cases e with
    | some e => simp at h
    | none =>
      have hb := complete_data _ s T t t₁ s₁ b hr
      subst hb
      simp only [Option.isSome_none, Bool.false_eq_true, if_false, JsonProtocol.outputPostValue, P.run] at h
      rcases hsd : s₁.dump with _ | ⟨c', r'⟩ <;> simp only [hsd, Prog.run] at h
      · exact nomatch h
      · exact (congrArg (fun x => x.2.2) h).symm
  · rw [hr] at h; exact nomatch h
  · rw [hr] at h; exact nomatch h

/-- What holds: the JSON protocols notice a short write of a scalar where no separator
comes before it. -/
theorem C100_partial {τ : Type} (E : JsonEnv τ) (s : Json τ) (c : JCtx) (r : List JCtx) (hs : s.dump = c :: r) (hc : c.Bare) (w : WriteCall)
    (hw : w.IsText) : Complete ((simpleJson E).perform w) s ∧ Complete ((tjson E).perform w) s := by
  have f (v : F64) : Complete (JsonProtocol.outputF64 E v) s := by
    unfold JsonProtocol.outputF64
    split
    · exact complete_text _ _ _ hs hc
    · split
      · exact complete_text _ _ _ hs hc
      · split <;> exact complete_text _ _ _ hs hc
  cases w with
  | bool | byte | i16 | i32 | i64 | string => exact ⟨complete_text _ _ _ hs hc, complete_text _ _ _ hs hc⟩
  | double v => exact ⟨f v, f v⟩
  | _ => exact hw.elim

/-- A short write of a string is noticed; one of a list header is not. -/
example : JCtx.Bare .listFirst ∧ WriteCall.IsText (.string []) := ⟨trivial, trivial⟩

example : ((simpleJson (JsonPlain.env 0)).perform (.string [])).run (shortWatch deaf) (Json.newSimple []) ((), false) =
    (.ok (protocolFromOsError (some ⟨.other, 0, ascii "short write"⟩), Json.newSimple []), ((), true)) := by kernel_rfl

/-- The bracket of a list header is written without a look at the count. -/
theorem C100_json_violated : ¬ C100_statement := by
  intro h
  have := (h.2.2 Bytes (JsonPlain.env 0) (Json.newSimple []) (.structBegin [])).1 deaf () () _ true rfl
  exact nomatch this

end Thrift
