import Verif.Props.Binary
/-!
# Properties C09-C12: Skip over the binary protocol
-/

namespace Thrift

/-! ## C09 -/

/-- C09.  Skipping an encoded value succeeds and consumes exactly its encoding.
`d` is the recursion limit passed in, `msd` the global one. -/
theorem C09_skip_exact (v : Val) (hv : v.WF) (msd d : Int) (s : Bin) (hs : s.checkReadLength = false)
    (fuel : Nat) (hf : v.size ≤ fuel) (after : Bytes) :
    (skip binary msd fuel v.type d).run memory s (BinarySpec.encode v ++ after) = (.ok (none, s), after) :=
  (Bin.skips_val msd v s fuel d hs hv hf).memory after

example : (skip binary 5 40 12 5).run memory Bin.default (BinarySpec.encode sampleVal ++ [7, 8]) =
    (.ok (none, Bin.default), [7, 8]) :=
  C09_skip_exact sampleVal sampleVal_wf 5 5 _ rfl 40 (by decide) _

/-! ## C10 -/

/-- C09 for the stop marker, over every protocol and transport: there is
nothing to skip, so nothing is read and nothing fails. -/
theorem C09_skip_stop (p : Proto π) (T : Transport σ) (msd d : Int) (fuel : Nat) (hf : 0 < fuel) (s : π) (t : σ) :
    (skip p msd fuel TT.STOP d).run T s t = (.ok (none, s), t) := by
  cases fuel with
  | zero => omega
  | succ fuel => rfl

/-- C10.  Skip returns on every type byte, every byte string and every reader
state, with or without a read limit.  The fuel (recursion depth and number of
fields of one struct) needed is bounded by the length of the input. -/
theorem C10_skip_total (t : TType) (msd d : Int) (s : Bin) (inp : Bytes) (fuel : Nat)
    (hf : inp.length + 1 < fuel) :
    ∃ e s' left, (skip binary msd fuel t d).run memory s inp = (.ok (e, s'), left) ∧
      left.length ≤ inp.length := by
  rcases (Bin.wp_skip msd fuel t d s inp hf).memory with ⟨e, s', left, h, h2⟩ | ⟨_, _, h⟩
  · exact ⟨e, s', left, h, h2⟩
  · exact h.elim

example : ∃ e s' left, (skip binary 9 10 15 9).run memory Bin.default [12, 0, 0, 0, 5, 3, 3] =
    (.ok (e, s'), left) ∧ left.length ≤ 7 :=
  C10_skip_total 15 9 9 _ [12, 0, 0, 0, 5, 3, 3] 10 (by decide)

/-! ## C11 -/

/-- C11 in full: data nested deeper than the limit gives an error. -/
def C11_statement : Prop :=
  ∀ (v : Val) (d : Int) (fuel : Nat) (after : Bytes), v.WF → v.size ≤ fuel → d < v.depth →
    ∃ e s' left, (skip binary d fuel v.type d).run memory Bin.default (BinarySpec.encode v ++ after) =
      (.ok (some e, s'), left)

theorem skipFields_congr (p : Proto π) (f g : TType → P π GoErr) (h : ∀ t, f t = g t) (n : Nat) :
    skipFields p f n = skipFields p g n := by
  rw [show f = g from funext h]

/-- The recursion limit has no effect at all, on any protocol and any input. -/
theorem C11_skip_depth_ignored (p : Proto π) (msd msd' : Int) (fuel : Nat) :
    ∀ (t : TType) (d d' : Int), skip p msd fuel t d = skip p msd' fuel t d' := by
  induction fuel with
  | zero => intro t d d'; rfl
  | succ fuel ih =>
    intro t d d'
    simp only [skip]
    have h1 : ∀ t, skip p msd fuel t (d - 1) = skip p msd' fuel t (d' - 1) := fun t => ih t _ _
    have h2 : ∀ t, skip p msd fuel t msd = skip p msd' fuel t msd' := fun t => ih t _ _
    simp only [h1, h2]

/-- C11 does not hold. -/
theorem C11_violated : ¬ C11_statement := by
  intro h
  obtain ⟨e, s', left, h1⟩ := h sampleVal 1 40 [] sampleVal_wf (by decide) (by decide)
  rw [C09_skip_exact sampleVal sampleVal_wf 1 1 _ rfl 40 (by decide) []] at h1
  simp at h1

/-- C11, what remains: data nested no deeper than the limit is skipped without
error.  Missing: the error for deeper data, which the code never reports. -/
theorem C11_skip_depth_partial (v : Val) (hv : v.WF) (d : Int) (_hd : (v.depth : Int) ≤ d) (fuel : Nat)
    (hf : v.size ≤ fuel) (after : Bytes) :
    (skip binary d fuel v.type d).run memory Bin.default (BinarySpec.encode v ++ after) =
      (.ok (none, Bin.default), after) :=
  C09_skip_exact v hv d d _ rfl fuel hf after

example : (sampleVal.depth : Int) ≤ 4 := by decide

/-! ## C12 -/

/-- C12 in full. -/
def C12_statement : Prop :=
  ∀ (v : Val) (fuel k : Nat), v.WF → (BinarySpec.encode v).length + 1 < fuel →
    k < (BinarySpec.encode v).length →
    ∃ e s' left, (skipDefaultDepth binary 100 fuel v.type).run memory Bin.default
      ((BinarySpec.encode v).take k) = (.ok (some e, s'), left)

/-- C12 does not hold: a list cut off after its header is skipped "successfully". -/
theorem C12_violated : ¬ C12_statement := by
  intro h
  obtain ⟨e, s', left, h1⟩ := h (.list 8 (.cons (.i32 1) .nil)) 40 5 (by
    simp [Val.WF, Vals.WF, Val.type, IsWireType, Vals.length]) (by decide) (by decide)
  revert h1
  have : (skipDefaultDepth binary 100 40 15).run memory Bin.default [8, 0, 0, 0, 1] =
      (.ok (none, Bin.default), []) := by rfl
  intro h1
  have h2 := this.symm.trans h1
  simp at h2

/-- A struct is never reported as truncated, wherever it is cut: `Skip` gives no
error on any input read as a struct. -/
theorem C12_struct_never_reported (msd d : Int) (s : Bin) (inp : Bytes) (fuel : Nat)
    (hf : inp.length + 1 < fuel) :
    ∃ s' left, (skip binary msd fuel TT.STRUCT d).run memory s inp = (.ok (none, s'), left) := by
  cases fuel with
  | zero => omega
  | succ fuel =>
    have h : Wp (skip binary msd (fuel + 1) TT.STRUCT d) s inp (fun e _ _ => e = none) NoPanic := by
      show Wp (binary.readStructBegin >>= _ : P Bin GoErr) s inp _ _
      refine Wp.bind (Q := fun r _ i => r.2 = none ∧ i = inp) (Wp.pure ⟨rfl, rfl⟩) fun r s' i h => ?_
      obtain ⟨hr, rfl⟩ := h
      refine Wp.ite (fun hc => by simp [hr] at hc) fun _ => ?_
      exact Wp.bind (Bin.wp_skipFields _ i.length
        (fun t s j hj => Bin.wp_skip msd fuel t (d - 1) s j (by omega)) fuel s' i
        (Nat.le_refl _) (by omega)) fun _ s' j hj => Wp.pure rfl
    rcases h.memory with ⟨e, s', left, h1, rfl⟩ | ⟨_, _, h⟩
    · exact ⟨s', left, h1⟩
    · exact h.elim

/-- Scalar values. -/
def Val.IsScalar : Val → Prop
  | .struct _ | .map _ _ _ | .set _ _ | .list _ _ => False
  | _ => True

/-- The length of the part of an encoding whose truncation is noticed: all of a
scalar, the header of a container, nothing of a struct. -/
def headLength : Val → Nat
  | .map _ _ _ => 6
  | .set _ _ | .list _ _ => 5
  | .struct _ => 0
  | v => (BinarySpec.encode v).length

theorem honest_snd {m : P Bin (α × GoErr)} (h : Honest Prod.snd m) : Honest id (do return (← m).2) :=
  h.bind (fun _ _ => Honest.pure _ _) fun _ h => Fails.pure h

/-- A cut inside the leading part `hd` that an honest reader `m` consumes. -/
theorem cut_reported {m : P Bin (α × GoErr)} {k : α × GoErr → P Bin GoErr} {s s' : Bin} {hd tl : Bytes} {a : α}
    (hh : Honest Prod.snd m) (h : Reads m s s' hd a)
    (hk : ∀ r, r.2.isSome → k r = Pure.pure r.2) (j : Nat) (hj : j < hd.length) :
    ∃ e s'' left, (m >>= k).run memory s ((hd ++ tl).take j) = (.ok (some e, s''), left) := by
  obtain ⟨⟨b, e⟩, s'', i, h1, h2⟩ := hh.truncated h j hj []
  rw [List.take_append_of_le_length (by omega)]
  have h3 : (m >>= k).run duplex s (hd.take j, []) = (.ok (e, s''), (i, [])) := by
    rw [P.run_bind, h1, andThen_ok, hk _ h2]; rfl
  obtain ⟨e, rfl⟩ := Option.isSome_iff_exists.1 h2
  exact ⟨e, s'', i, memory_of_reads ((m >>= k) s) _ _ [] _ h3⟩

/-- C12, what remains: truncation inside a scalar or inside the header of a list,
set or map is reported.  Missing: truncation inside structs and inside container
elements, which Skip does not report. -/
theorem C12_skip_truncated_partial (v : Val) (hv : v.WF) (msd d : Int) (s : Bin) (hs : s.checkReadLength = false)
    (fuel : Nat) (hf : 0 < fuel) (k : Nat) (hk : k < headLength v) :
    ∃ e s' left, (skip binary msd fuel v.type d).run memory s ((BinarySpec.encode v).take k) =
      (.ok (some e, s'), left) := by
  cases fuel with
  | zero => omega
  | succ fuel =>
    cases v with
    | bool b => exact cut_reported (tl := []) Bin.honest_bool (Bin.reads_bool b s hs) (fun _ _ => rfl) k hk
    | byte b => exact cut_reported (tl := []) Bin.honest_byte (Bin.reads_byte b s hs) (fun _ _ => rfl) k hk
    | i16 b =>
      have := cut_reported (tl := []) (k := fun r => pure r.2) Bin.honest_i16 (Bin.reads_i16 b s hs) (fun _ _ => rfl) k hk
      rwa [List.append_nil] at this
    | i32 b =>
      have := cut_reported (tl := []) (k := fun r => pure r.2) Bin.honest_i32 (Bin.reads_i32 b s hs) (fun _ _ => rfl) k hk
      rwa [List.append_nil] at this
    | i64 b =>
      have := cut_reported (tl := []) (k := fun r => pure r.2) Bin.honest_i64 (Bin.reads_i64 b s hs) (fun _ _ => rfl) k hk
      rwa [List.append_nil] at this
    | double b =>
      have := cut_reported (tl := []) (k := fun r => pure r.2) Bin.honest_double (Bin.reads_double b s hs) (fun _ _ => rfl) k hk
      rwa [List.append_nil] at this
    | str b =>
      have := cut_reported (tl := []) (k := fun r => pure r.2) Bin.honest_string (Bin.reads_string b hv s hs) (fun _ _ => rfl) k hk
      rwa [List.append_nil] at this
    | struct fs => simp [headLength] at hk
    | map kt vt ps =>
      exact cut_reported Bin.honest_mapBegin (Bin.reads_mapBegin kt vt ps.length hv.2.2.1 s hs)
        (fun r h => if_pos h) k hk
    | set t vs =>
      exact cut_reported Bin.honest_listBegin (Bin.reads_listBegin t vs.length hv.2.1 s hs)
        (fun r h => if_pos h) k hk
    | list t vs =>
      exact cut_reported Bin.honest_listBegin (Bin.reads_listBegin t vs.length hv.2.1 s hs)
        (fun r h => if_pos h) k hk

example : (4 : Nat) < headLength (.list 8 (.cons (.i32 1) .nil)) := by decide

end Thrift
