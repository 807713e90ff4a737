import Verif.Model.AppException
import Verif.Lemmas.GenWrite
import Verif.Lemmas.Memory
/-!
# Application exceptions and value trees
-/

namespace Thrift

variable {T : Transport σ} {p : Proto π} {bin : Bool}

/-- The fields that `Write` sends. -/
def AppExc.tree (x : AppExc) : Fields :=
  if x.message.length > 0 then .cons 1 (.str x.message) (.cons 2 (.i32 x.type) .nil)
  else .cons 2 (.i32 x.type) .nil

/-- What the reader has after the given fields: the last ones win. -/
def AppExc.collect : Fields → AppExc → AppExc
  | .nil, x => x
  | .cons id (.str m) r, x => AppExc.collect r (if id = 1 then { x with message := m } else x)
  | .cons id (.i32 t) r, x => AppExc.collect r (if id = 2 then { x with type := t } else x)
  | .cons _ _ r, x => AppExc.collect r x

theorem sim_appType (hB : Blind T p bin) (x : AppExc) :
    Sim T (writeFields p (.cons 2 (.i32 x.type) .nil) >>= fun e => if e.isSome then pure e else
      (p.writeFieldStop >>= fun e => if e.isSome then pure e else p.writeStructEnd)) (appWriteType p x) := by
  intro s t s' t' h
  obtain ⟨s₁, t₁, h1, h⟩ := seq_inv h
  obtain ⟨s₂, t₂, h2, h3⟩ := seq_inv h
  simp only [writeFields, writeVal, Val.type] at h1
  obtain ⟨_, _, a1, h1⟩ := seq_inv h1
  obtain ⟨_, _, a2, h1⟩ := seq_inv h1
  obtain ⟨_, _, a3, h1⟩ := seq_inv h1
  simp only [P.run_pure, Prod.mk.injEq, Res.ok.injEq, true_and] at h1
  obtain ⟨rfl, rfl⟩ := h1
  have a1 := hB.field (ascii "type") .i32 2 (by decide) (by cases bin <;> rfl) _ _ _ _ a1
  exact seq_run a1 (seq_run a2 (seq_run a3 (seq_run h2 h3)))

theorem sim_app (hB : Blind T p bin) (x : AppExc) : Sim T (writeVal p (.struct x.tree)) (appWrite p x) := by
  intro s t s' t' h
  simp only [writeVal] at h
  obtain ⟨s₁, t₁, h1, h⟩ := seq_inv h
  have h1 := hB.struct (ascii "TApplicationException") _ _ _ _ h1
  unfold AppExc.tree at h
  unfold appWrite
  by_cases hm : x.message.length > 0
  · simp only [hm, if_true] at h ⊢
    rw [P.run_bind, h1, andThen_ok]
    obtain ⟨s₂, t₂, h2, h⟩ := seq_inv h
    simp only [writeFields, writeVal, Val.type] at h2
    obtain ⟨_, _, a1, h2⟩ := seq_inv h2
    obtain ⟨_, _, a2, h2⟩ := seq_inv h2
    obtain ⟨_, _, a3, h2⟩ := seq_inv h2
    have a1 := hB.field (ascii "message") .string 1 (by decide) (by cases bin <;> rfl) _ _ _ _ a1
    refine seq_run a1 (seq_run a2 (seq_run a3 (sim_appType hB x _ _ _ _ (seq_run ?_ h))))
    simp only [writeFields, writeVal, Val.type]
    exact h2
  · simp only [hm, if_false] at h ⊢
    rw [P.run_bind, h1, andThen_ok]
    exact sim_appType hB x _ _ _ _ h

theorem DecFields.app (msd : Int) : ∀ (fs : Fields) {s s' : π} {bs : Bytes} (fuel n : Nat) (x : AppExc),
    fs.size ≤ fuel → fs.size ≤ n → DecFields p fs s s' bs → Reads (appReadFields p msd fuel n x) s s' bs (AppExc.collect fs x)
  | .nil, _, _, _, _, 0, _, _, hn, _ => by simp [Fields.size] at hn
  | .cons id v r, _, _, _, _, 0, _, _, hn, _ => by
    have := v.size_pos
    simp only [Fields.size] at hn; omega
  | .nil, s, s', bs, fuel, n + 1, x, hf, hn, h => by
    obtain ⟨id, h⟩ := h
    refine Runs.congr (a := bs ++ []) ?_ (by simp)
    show Runs (p.readFieldBegin >>= _ : P π (AppExc × GoErr)) _ _ _ _
    rstep h
    exact Runs.pure _ _
  | .cons id v r, s, s', bs, fuel, n + 1, x, hf, hn, h => by
    obtain ⟨s₁, s₂, s₃, a, b, c, d, h1, h2, h3, h4, rfl⟩ := h
    have hp := v.size_pos
    simp only [Fields.size] at hn hf
    show Runs (p.readFieldBegin >>= _ : P π (AppExc × GoErr)) _ _ _ _
    rstep h1
    simp only [v.type_ne_stop, if_false]
    have hsk : Reads (do let e ← skipDefaultDepth p msd fuel v.type; return (x, e)) s₁ s₂ b x := by
      intro rest out
      have := Dec.skip msd v fuel msd (by omega) h2 rest out
      simp [skipDefaultDepth, this]
    have key : ∃ y, Reads (appReadField p msd fuel x v.type id) s₁ s₂ b y ∧ AppExc.collect (.cons id v r) x = AppExc.collect r y := by
      have other : ¬ (id = 1 ∧ v.type = TT.STRING) → ¬ (id = 2 ∧ v.type = TT.I32) →
          Reads (appReadField p msd fuel x v.type id) s₁ s₂ b x := by
        intro n1 n2
        unfold appReadField
        rw [if_neg n1, if_neg n2]
        exact hsk
      cases v with
      | str m =>
        by_cases hi : id = 1
        · refine ⟨{ x with message := m }, ?_, by simp [AppExc.collect, hi]⟩
          unfold appReadField
          rw [if_pos ⟨hi, rfl⟩]
          exact reads_mapFst h2.1 fun m => { x with message := m }
        · exact ⟨x, other (fun h => hi h.1) (fun h => absurd h.2 (by decide : TT.STRING ≠ TT.I32)), by rw [AppExc.collect, if_neg hi]⟩
      | i32 t =>
        by_cases hi : id = 2
        · refine ⟨{ x with type := t }, ?_, by simp [AppExc.collect, hi]⟩
          unfold appReadField
          rw [if_neg (fun h => absurd h.2 (by decide : TT.I32 ≠ TT.STRING)), if_pos ⟨hi, rfl⟩]
          exact reads_mapFst h2 fun v => { x with type := v }
        · exact ⟨x, other (fun h => absurd h.2 (by decide : TT.I32 ≠ TT.STRING)) (fun h => hi h.1), by rw [AppExc.collect, if_neg hi]⟩
      | bool _ => exact ⟨x, other (fun h => nomatch h.2) (fun h => nomatch h.2), by simp [AppExc.collect]⟩
      | byte _ => exact ⟨x, other (fun h => nomatch h.2) (fun h => nomatch h.2), by simp [AppExc.collect]⟩
      | i16 _ => exact ⟨x, other (fun h => nomatch h.2) (fun h => nomatch h.2), by simp [AppExc.collect]⟩
      | i64 _ => exact ⟨x, other (fun h => nomatch h.2) (fun h => nomatch h.2), by simp [AppExc.collect]⟩
      | double _ => exact ⟨x, other (fun h => nomatch h.2) (fun h => nomatch h.2), by simp [AppExc.collect]⟩
      | struct _ => exact ⟨x, other (fun h => nomatch h.2) (fun h => nomatch h.2), by simp [AppExc.collect]⟩
      | map _ _ _ => exact ⟨x, other (fun h => nomatch h.2) (fun h => nomatch h.2), by simp [AppExc.collect]⟩
      | set _ _ => exact ⟨x, other (fun h => nomatch h.2) (fun h => nomatch h.2), by simp [AppExc.collect]⟩
      | list _ _ => exact ⟨x, other (fun h => nomatch h.2) (fun h => nomatch h.2), by simp [AppExc.collect]⟩
    obtain ⟨y, hy, hc⟩ := key
    rw [hc]
    rstep hy
    rstep h3
    exact DecFields.app msd r fuel n y (by omega) (by omega) h4

theorem Dec.app (msd : Int) (fs : Fields) {s s' : π} {bs : Bytes} (fuel : Nat) (hf : fs.size ≤ fuel) (h : Dec p (.struct fs) s s' bs) :
    Reads (appRead p msd fuel) s s' bs (some (AppExc.collect fs ⟨0, []⟩)) := by
  obtain ⟨s₁, s₂, a, b, c, n, h1, h2, h3, rfl⟩ := h
  refine Runs.congr (a := a ++ (b ++ (c ++ []))) ?_ (by simp)
  unfold appRead
  rstep h1
  rstep (DecFields.app msd fs fuel fuel ⟨BitVec.ofInt 32 UNKNOWN_APPLICATION_EXCEPTION, []⟩ hf hf h2)
  rstep h3
  exact Runs.pure _ _

theorem AppExc.collect_tree (x y : AppExc) (hy : y.message = []) : AppExc.collect x.tree y = x := by
  unfold AppExc.tree
  split
  · simp [AppExc.collect]
  · next h =>
    have : x.message = [] := List.eq_nil_of_length_eq_zero (by omega)
    cases x
    simp_all [AppExc.collect]

theorem AppExc.tree_size (x : AppExc) : x.tree.size ≤ 3 := by
  unfold AppExc.tree; split <;> simp [Fields.size, Val.size]

theorem AppExc.tree_wf (x : AppExc) (h : x.message.length < 2 ^ 31) : x.tree.WF := by
  unfold AppExc.tree; split
  · exact ⟨h, trivial, trivial⟩
  · exact ⟨trivial, trivial⟩

theorem AppExc.tree_tame (x : AppExc) : x.tree.Tame := by
  unfold AppExc.tree; split <;> simp [Fields.Tame, Val.Tame, Val.structDepth]

theorem AppExc.tree_norm (x : AppExc) : x.tree.norm = x.tree := by
  unfold AppExc.tree; split <;> simp [Fields.norm, Val.norm]

end Thrift
