import Verif.Lemmas.SkipWork
import Verif.Lemmas.AsksProtocols
/-!
# Property C208: skipping takes work in proportion to the data
-/

namespace Thrift

/-- `skipWork` is `Skip` with a counter: without the counter it is the same
program, in every state and over every transport. -/
theorem C208_same_partial (p : Proto π) (msd : Int) (fuel : Nat) (t : TType) (d : Int) :
    skip p msd fuel t d = (do let x ← skipWork p msd fuel t d; return x.1) :=
  funext fun s => erases_skip p msd fuel t d s

/-- Skipping calls `Skip` at most once, and once more for each byte taken from
the input. -/
def C208_for (p : Proto π) : Prop :=
  ∀ (msd : Int) (fuel : Nat) (t : TType) (d : Int) (s s' : π) (inp rest : Bytes) (e : GoErr) (n : Nat),
    (skipWork p msd fuel t d).run memory s inp = (.ok ((e, n), s'), rest) → n ≤ 1 + (inp.length - rest.length)

/-- C208 in full. -/
def C208_statement : Prop := C208_for binary ∧ ∀ f, C208_for (compact f)

theorem run_repeat {m : P π Nat} {T : Transport σ} {s : π} {t : σ} (h : m.run T s t = (.ok (1, s), t)) :
    ∀ n, (repeatWork n m).run T s t = (.ok (n, s), t)
  | 0 => rfl
  | n + 1 => by
    show (do let a ← m; let b ← repeatWork n m; return a + b : P _ Nat).run T s t = _
    rw [P.run_bind, h]
    show (do let b ← repeatWork n m; return 1 + b : P _ Nat).run T s t = _
    rw [P.run_bind, run_repeat h n, Nat.add_comm n 1]
    rfl

/-- Five bytes, a list of elements of no type, are any number of calls, without
an error: the data after them are read as ever. -/
theorem C208_stop_partial (n : Nat) (hn : n < 2 ^ 31) (msd d : Int) (fuel : Nat) (s : Bin) (hs : s.checkReadLength = false) (rest : Bytes) :
    (skipWork binary msd (fuel + 2) TT.LIST d).run memory s (([0] ++ be 4 n) ++ rest) = (.ok ((none, n + 1), s), rest) := by
  have h := (Bin.reads_listBegin 0 n hn s hs).memory rest
  show (do
    let x ← binary.readListBegin
    if x.2.isSome then return (x.2, 1)
    let n ← repeatWork x.1.2.toNat (do let y ← skipWork binary msd (fuel + 1) x.1.1 (d - 1); return y.2)
    let e ← binary.readListEnd
    return (e, n + 1) : P Bin (GoErr × Nat)).run memory s _ = _
  have h' : binary.readListBegin.run memory s (([0] ++ be 4 n) ++ rest) = (.ok (((0, (n : Int)), none), s), rest) := h
  rw [P.run_bind, h']
  show (do
    let n ← repeatWork (n : Int).toNat (do let y ← skipWork binary msd (fuel + 1) 0 (d - 1); return y.2)
    let e ← binary.readListEnd
    return (e, n + 1) : P Bin (GoErr × Nat)).run memory s rest = _
  rw [P.run_bind, run_repeat (n := (n : Int).toNat) (show (do
    let y ← skipWork binary msd (fuel + 1) 0 (d - 1)
    return y.2 : P Bin Nat).run memory s rest = (.ok (1, s), rest) from rfl), Int.toNat_natCast]
  rfl

example : (skipWork binary 64 9 TT.LIST 64).run memory Bin.default (([0] ++ be 4 2147483647) ++ [7]) = (.ok ((none, 2147483648), Bin.default), [7]) :=
  C208_stop_partial 2147483647 (by decide) 64 64 7 _ rfl _

/-- The same of a list of bytes that is cut off after its header: that there are
no elements is an error each time, and goes unseen. -/
theorem C208_cut_partial (n : Nat) (hn : n < 2 ^ 31) (msd d : Int) (fuel : Nat) (s : Bin) (hs : s.checkReadLength = false) :
    (skipWork binary msd (fuel + 2) TT.LIST d).run memory s ([3] ++ be 4 n) = (.ok ((none, n + 1), s), []) := by
  have h := (Bin.reads_listBegin 3 n hn s hs).memory []
  rw [List.append_nil] at h
  have h' : binary.readListBegin.run memory s ([3] ++ be 4 n) = (.ok (((3, (n : Int)), none), s), []) := h
  show (do
    let x ← binary.readListBegin
    if x.2.isSome then return (x.2, 1)
    let n ← repeatWork x.1.2.toNat (do let y ← skipWork binary msd (fuel + 1) x.1.1 (d - 1); return y.2)
    let e ← binary.readListEnd
    return (e, n + 1) : P Bin (GoErr × Nat)).run memory s _ = _
  rw [P.run_bind, h']
  have hb : binary.readByte.run memory s [] = (.ok ((0, protocolFromOsError (some readAllErr)), s), []) := by
    show (BinaryProtocol.readAllBuf 1 >>= fun x => pure (x.1.headD 0, x.2) : P Bin (Byte × GoErr)).run memory s [] = _
    unfold BinaryProtocol.readAllBuf
    show Prog.run memory (Prog.bind (Prog.bind (BinaryProtocol.checkReadLength (1 : Nat) s) _) _) _ = _
    rw [Bin.check_text, if_neg fun h => by rw [hs] at h; exact absurd h.1 (by decide), hs]
    rfl
  show (do
    let n ← repeatWork (n : Int).toNat (do let y ← skipWork binary msd (fuel + 1) 3 (d - 1); return y.2)
    let e ← binary.readListEnd
    return (e, n + 1) : P Bin (GoErr × Nat)).run memory s [] = _
  have h1 : (do
    let y ← skipWork binary msd (fuel + 1) 3 (d - 1)
    return y.2 : P Bin Nat).run memory s [] = (.ok (1, s), []) := by
    show (do
      let y ← (do return ((← binary.readByte).2, 1))
      return y.2 : P Bin Nat).run memory s [] = _
    rw [P.run_bind, P.run_bind, hb]
    rfl
  rw [P.run_bind, run_repeat (n := (n : Int).toNat) h1, Int.toNat_natCast]
  rfl

example : (skipWork binary 64 9 TT.LIST 64).run memory Bin.default ([3] ++ be 4 2147483647) = (.ok ((none, 2147483648), Bin.default), []) :=
  C208_cut_partial 2147483647 (by decide) 64 64 7 _ rfl

/-- The same over the compact protocol, in six bytes at most. -/
theorem C208_compact_cut_partial (n : Nat) (hn : n < 2 ^ 31) (msd d : Int) (fuel : Nat) (s : Cmp) (f : Nat) (hf : 10 ≤ f) :
    (CompactSpec.listHeader 3 n).length ≤ 6 ∧
    (skipWork (compact f) msd (fuel + 2) TT.LIST d).run memory s (CompactSpec.listHeader 3 n) = (.ok ((none, n + 1), s), []) := by
  constructor
  · unfold CompactSpec.listHeader
    split
    · simp
    · have := leb128_length_le 5 n (by omega) (by decide)
      simp only [List.length_cons]; omega
  have h := (Cmp.reads_listBegin 3 (by decide) n hn s f hf).memory []
  rw [List.append_nil] at h
  have h' : (compact f).readListBegin.run memory s (CompactSpec.listHeader 3 n) = (.ok (((3, (n : Int)), none), s), []) := h
  show (do
    let x ← (compact f).readListBegin
    if x.2.isSome then return (x.2, 1)
    let n ← repeatWork x.1.2.toNat (do let y ← skipWork (compact f) msd (fuel + 1) x.1.1 (d - 1); return y.2)
    let e ← (compact f).readListEnd
    return (e, n + 1) : P Cmp (GoErr × Nat)).run memory s _ = _
  rw [P.run_bind, h']
  show (do
    let n ← repeatWork (n : Int).toNat (do let y ← skipWork (compact f) msd (fuel + 1) 3 (d - 1); return y.2)
    let e ← (compact f).readListEnd
    return (e, n + 1) : P Cmp (GoErr × Nat)).run memory s [] = _
  have h1 : (do
    let y ← skipWork (compact f) msd (fuel + 1) 3 (d - 1)
    return y.2 : P Cmp Nat).run memory s [] = (.ok (1, s), []) := rfl
  rw [P.run_bind, run_repeat (n := (n : Int).toNat) h1, Int.toNat_natCast]
  rfl

example : (skipWork (compact 10) 64 9 TT.LIST 64).run memory Cmp.new (CompactSpec.listHeader 3 2147483647) = (.ok ((none, 2147483648), Cmp.new), []) :=
  (C208_compact_cut_partial 2147483647 (by decide) 64 64 7 _ 10 (by decide)).2

/-- C208 does not hold of the binary protocol. -/
theorem C208_binary_violated : ¬ C208_for binary := fun h => by
  have := h _ _ _ _ _ _ _ _ _ _ (C208_stop_partial 2147483647 (by decide) 64 64 0 Bin.default rfl [])
  simp [be_length] at this

/-- Nor of the compact protocol. -/
theorem C208_compact_violated (f : Nat) (hf : 10 ≤ f) : ¬ C208_for (compact f) := fun h => by
  obtain ⟨h1, h2⟩ := C208_compact_cut_partial 2147483647 (by decide) 64 64 0 Cmp.new f hf
  have := h _ _ _ _ _ _ _ _ _ _ h2
  simp only [List.length_nil] at this
  omega

/-- C208 does not hold. -/
theorem C208_violated : ¬ C208_statement := fun h => C208_binary_violated h.1

/-- What remains for the binary protocol: on any input skipping comes to an end,
with 2^32 calls for each byte taken from it at the most.  Missing: that there is
one for each. -/
theorem C208_binary_partial (msd : Int) (fuel : Nat) (t : TType) (d : Int) (s : Bin) (inp : Bytes) (hf : inp.length + 1 < fuel) :
    (∃ e n s' rest, (skipWork binary msd fuel t d).run memory s inp = (.ok ((e, n), s'), rest) ∧ rest.length ≤ inp.length ∧
      n ≤ 1 + 2 ^ 32 * (inp.length - rest.length)) ∨
    ∃ rest, (skipWork binary msd fuel t d).run memory s inp = (.panic, rest) := by
  rcases (wp_skipWork (binary_digests (inp.length + 1)) binary_sized msd fuel t d s inp hf (by omega)).memory with
    ⟨⟨e, n⟩, s', rest, h1, h2, h3⟩ | ⟨rest, h, _⟩
  · exact .inl ⟨e, n, s', rest, h1, h2, by simp only at h3; omega⟩
  · exact .inr ⟨rest, h⟩

example : ([15, 0, 1] : Bytes).length + 1 < 5 := by decide

/-- The same for the compact protocol. -/
theorem C208_compact_partial (f : Nat) (msd : Int) (fuel : Nat) (t : TType) (d : Int) (s : Cmp) (inp : Bytes) (hf : inp.length + 1 < fuel)
    (hi : inp.length < f) :
    (∃ e n s' rest, (skipWork (compact f) msd fuel t d).run memory s inp = (.ok ((e, n), s'), rest) ∧ rest.length ≤ inp.length ∧
      n ≤ 1 + 2 ^ 32 * (inp.length - rest.length)) ∨
    ∃ rest, (skipWork (compact f) msd fuel t d).run memory s inp = (.panic, rest) := by
  rcases (wp_skipWork (compact_digests f) (compact_sized f) msd fuel t d s inp hf hi).memory with
    ⟨⟨e, n⟩, s', rest, h1, h2, h3⟩ | ⟨rest, h, _⟩
  · exact .inl ⟨e, n, s', rest, h1, h2, by simp only at h3; omega⟩
  · exact .inr ⟨rest, h⟩

example : ([15, 0, 1] : Bytes).length + 1 < 5 ∧ ([15, 0, 1] : Bytes).length < 10 := by decide

/-- C208 holds of what writers write, over the binary protocol: `Skip` is called
once for each value in the value, and no value has more values than bytes. -/
theorem C208_binary_values_partial (v : Val) (hv : v.WF) (msd d : Int) (fuel : Nat) (hf : v.size ≤ fuel) (s : Bin) (hs : s.checkReadLength = false)
    (rest : Bytes) :
    (skipWork binary msd fuel v.type d).run memory s (BinarySpec.encode v ++ rest) = (.ok ((none, v.nodes), s), rest) ∧
    v.nodes ≤ (BinarySpec.encode v).length :=
  ⟨((Bin.dec_val v s hs hv).skipWork msd v fuel d hf).memory rest, binary_nodes v⟩

example : (Val.list 8 (.cons (.i32 1) (.cons (.i32 2) .nil))).WF ∧ (Val.list 8 (.cons (.i32 1) (.cons (.i32 2) .nil))).nodes = 3 := by
  refine ⟨?_, rfl⟩
  simp only [Val.WF, Vals.WF, Vals.length, Val.type]
  decide

/-- And over the compact protocol. -/
theorem C208_compact_values_partial (v : Val) (hv : v.WF) (ht : v.Tame) (msd d : Int) (fuel : Nat) (hf : v.size ≤ fuel) (f : Nat) (h10 : 10 ≤ f)
    (s : Cmp) (hs : s.boolValueIsNotNull = false) (rest : Bytes) :
    (∃ s', (skipWork (compact f) msd fuel v.type d).run memory s (CompactSpec.encode v ++ rest) = (.ok ((none, v.nodes), s'), rest)) ∧
    v.nodes ≤ (CompactSpec.encode v).length := by
  refine ⟨?_, compact_nodes v⟩
  obtain ⟨s', h, _⟩ := Cmp.dec_val f h10 v s hs hv ht
  have := (Dec.skipWork msd v.norm fuel d (by rw [Val.norm_size]; exact hf) h).memory rest
  rw [Val.norm_type, Val.nodes_norm] at this
  exact ⟨s', this⟩

example : (Val.list 8 (.cons (.i32 1) (.cons (.i32 2) .nil))).Tame := by
  simp only [Val.Tame, Vals.Tame]
  decide

end Thrift
