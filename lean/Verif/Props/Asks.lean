import Verif.Lemmas.AsksProtocols
import Verif.Lemmas.Binary
import Verif.Lemmas.Compact
import Verif.Lemmas.KernelRfl
/-!
# Property C207: no buffer is larger than what has arrived
-/

namespace Thrift

/-- Whatever is read through the protocol `p`, no buffer is made that is larger
than all the data there is, or than the eight bytes of the largest scalar. -/
def C207_for (p : Proto π) : Prop :=
  ∀ (S : Schema) (L : FloatLib) (mem : List Nat → Nat) (msd : Int) (fuel : Nat) (cs : List AnyRead) (s : π) (inp : Bytes),
    ∀ n ∈ (AnyRead.calls p S L mem msd fuel cs).asks memory s inp, n ≤ max inp.length 8

/-- The same of one `Read` of a framed transport. -/
def C207_framed : Prop :=
  ∀ (k : Nat) (s : Framed) (inp : Bytes), ∀ n ∈ (framedRead k).asks memory s inp, n ≤ max inp.length 8

/-- C207 in full. -/
def C207_statement : Prop := C207_for binary ∧ (∀ f, C207_for (compact f)) ∧ C207_framed

/-- Four bytes call for a buffer of any size below two gigabytes. -/
theorem C207_binary_asks_partial (v : I32) (hv : 0 ≤ v.toInt) (s : Bin) (hs : s.checkReadLength = false) :
    binary.readString.asks memory s (be 4 v.toNat) = [4, v.toNat] := by
  have h1 : BinaryProtocol.readI32.run memory s (be 4 v.toNat) = (.ok ((v, none), s), []) := by
    have := Bin.reads_i32 v s hs [] []
    rw [List.append_nil] at this
    exact memory_of_reads (BinaryProtocol.readI32 s) _ _ [] _ this
  have hn : v.toInt.toNat = v.toNat := by
    rw [BitVec.toInt_eq_toNat_cond] at hv ⊢
    split
    · rfl
    · rename_i h; rw [if_neg h] at hv; have := v.isLt; omega
  have h2 : BinaryProtocol.readI32.asks memory s (be 4 v.toNat) = [4] := by
    unfold BinaryProtocol.readI32 BinaryProtocol.readAllBuf
    show Prog.asks memory (Prog.bind (Prog.bind (BinaryProtocol.checkReadLength (4 : Nat) s) _) _) _ = _
    rw [Bin.check_text, if_neg fun h => by rw [hs] at h; exact absurd h.1 (by decide), hs]
    show Prog.asks memory (.readAll 4 fun x => .ret ((uint32BE x.buf, protocolFromOsError x.err), s)) _ = _
    rw [Prog.asks]
    rcases memory.readAll 4 (be 4 v.toNat) with ⟨x | _ | _, s'⟩ <;> rfl
  have h3 : ∀ inp, (BinaryProtocol.readStringBody v.toInt).asks memory s inp = [v.toNat] := by
    intro inp
    unfold BinaryProtocol.readStringBody
    rw [if_neg (by omega)]
    show Prog.asks memory (Prog.bind (BinaryProtocol.checkReadLength v.toInt s) _) _ = _
    rw [Bin.check_text, if_neg fun h => by rw [hs] at h; exact absurd h.1 (by decide), hs]
    show Prog.asks memory (.readAll v.toInt.toNat fun x => .ret ((x.buf, protocolFromOsError x.err), s)) _ = _
    rw [Prog.asks, hn]
    rcases memory.readAll v.toNat inp with ⟨x | _ | _, s'⟩ <;> rfl
  show BinaryProtocol.readString.asks memory s _ = _
  unfold BinaryProtocol.readString
  rw [P.asks_bind, h1, h2]
  show [4] ++ (BinaryProtocol.readStringBody v.toInt).asks memory s [] = _
  rw [h3]; rfl

example : binary.readString.asks memory Bin.default (be 4 (0x7fffffff#32 : I32).toNat) = [4, 2147483647] :=
  C207_binary_asks_partial 0x7fffffff#32 (by decide) _ rfl

/-- At most five bytes do over the compact protocol. -/
theorem C207_compact_asks_partial (v : I32) (hv : 0 < v.toInt) (s : Cmp) (f : Nat) (hf : 10 ≤ f) :
    (leb128 v.toNat).length ≤ 5 ∧ v.toNat ∈ (compact f).readBinary.asks memory s (leb128 v.toNat) := by
  refine ⟨leb128_length_le 5 v.toNat (by have := v.isLt; omega) (by decide), ?_⟩
  have h1 : (CompactProtocol.readVarint32 f).run memory s (leb128 v.toNat) = (.ok ((v, none), s), []) := by
    have := Cmp.reads_varint32 v s f hf [] []
    rw [List.append_nil] at this
    exact memory_of_reads (CompactProtocol.readVarint32 f s) _ _ [] _ this
  have hn : v.toInt.toNat = v.toNat := by
    rw [BitVec.toInt_eq_toNat_cond] at hv ⊢
    split
    · rfl
    · rename_i h; rw [if_neg h] at hv; have := v.isLt; omega
  have h0 : v ≠ 0 := by rintro rfl; exact absurd hv (by decide)
  show _ ∈ (CompactProtocol.readBinary f).asks memory s _
  unfold CompactProtocol.readBinary
  rw [P.asks_bind, h1, List.mem_append]
  right
  show _ ∈ P.asks memory (if v = 0 then Pure.pure ([], none) else if v.toInt < 0 then P.panic else do
    let r ← P.readAll v.toInt.toNat
    return (r.buf, none) : P Cmp (Bytes × GoErr)) s []
  rw [if_neg h0, if_neg (by omega)]
  show _ ∈ Prog.asks memory (.readAll v.toInt.toNat fun x => .ret ((x.buf, none), s)) []
  rw [Prog.asks, hn]
  exact List.mem_cons_self

example : (0x7fffffff#32 : I32).toNat ∈ (compact 10).readBinary.asks memory Cmp.new (leb128 (0x7fffffff#32 : I32).toNat) :=
  (C207_compact_asks_partial 0x7fffffff#32 (by decide) _ _ (by decide)).2

/-- The first four bytes of a stream call for a frame of any size below four gigabytes. -/
theorem C207_framed_asks_partial (v : BitVec 32) (hv : v ≠ 0) (k : Nat) :
    v.toNat ∈ (framedRead k).asks memory Framed.new (be 4 v.toNat) := by
  have h1 : (P.readAll 4 : P Framed _).run memory Framed.new (be 4 v.toNat) = (.ok (⟨be 4 v.toNat, 4, none⟩, Framed.new), []) := by
    rw [P.run_readAll, memory_readAll, if_pos (by rw [be_length]; exact Nat.le_refl _)]
    have e1 : (be 4 v.toNat).take 4 = be 4 v.toNat := List.take_of_length_le (by rw [be_length]; exact Nat.le_refl _)
    have e2 : (be 4 v.toNat).drop 4 = [] := List.drop_of_length_le (by rw [be_length]; exact Nat.le_refl _)
    rw [e1, e2]
  have hu : uint32BE (be 4 v.toNat) = v := by have := uint32BE_be v []; rwa [List.append_nil] at this
  have hf : v.toNat ∈ framedReadFrame.asks memory Framed.new (be 4 v.toNat) := by
    unfold framedReadFrame
    rw [P.asks_bind, h1, List.mem_append]
    right
    show _ ∈ P.asks memory (if (uint32BE (be 4 v.toNat)).toNat = 0 then Pure.pure (0, none) else do
      let body ← P.readAll (uint32BE (be 4 v.toNat)).toNat
      if body.err.isSome then return (body.n, body.err)
      P.modify fun s => { s with readBuffer := body.buf }
      return ((uint32BE (be 4 v.toNat)).toNat, none) : P Framed (Nat × GoErr)) Framed.new []
    rw [hu, if_neg (show ¬ v.toNat = 0 from fun h => hv (BitVec.eq_of_toNat_eq h)), P.asks_bind, List.mem_append]
    left
    show _ ∈ Prog.asks memory (.readAll v.toNat fun x => .ret (x, Framed.new)) []
    rw [Prog.asks]
    exact List.mem_cons_self
  show _ ∈ P.asks memory (do
    let _ ← framedReadFrame
    let x ← framedBufferRead k
    return (x.1, transportFromOsError x.2) : P Framed (Bytes × GoErr)) Framed.new _
  rw [P.asks_bind, List.mem_append]
  exact .inl hf

example : (0xffffffff#32).toNat ∈ (framedRead 1).asks memory Framed.new (be 4 (0xffffffff#32).toNat) :=
  C207_framed_asks_partial 0xffffffff#32 (by decide) 1

theorem asks_one (p : Proto π) (c : AnyRead) (m : P π α) (hm : ∀ S L mem msd fuel, c.call p S L mem msd fuel = (do let _ ← m))
    (h : C207_for p) (s : π) (inp : Bytes) {n : Nat} (hn : n ∈ m.asks memory s inp) : n ≤ max inp.length 8 := by
  refine h ⟨fun _ => ⟨[], []⟩, fun _ _ => []⟩ ⟨fun _ => 0, fun _ => 0, fun _ => 0, fun _ => 0, fun _ => [], fun _ => [], fun _ => (0, false)⟩
    (fun _ => 0) 0 0 [c] s inp n ?_
  unfold AnyRead.calls
  rw [P.asks_bind, hm, P.asks_bind, List.mem_append, List.mem_append]
  exact .inl (.inl hn)

/-- C207 does not hold of the binary protocol: a string, four bytes long so far,
takes two gigabytes. -/
theorem C207_binary_violated : ¬ C207_for binary := by
  intro h
  have h1 := C207_binary_asks_partial 0x7fffffff#32 (by decide) Bin.default rfl
  have := asks_one binary .string binary.readString (fun _ _ _ _ _ => rfl) h Bin.default _ (n := (0x7fffffff#32 : I32).toNat)
    (by rw [h1]; simp)
  rw [be_length] at this
  exact absurd this (by decide)

/-- Nor of the compact protocol. -/
theorem C207_compact_violated (f : Nat) (hf : 10 ≤ f) : ¬ C207_for (compact f) := by
  intro h
  obtain ⟨hl, h1⟩ := C207_compact_asks_partial 0x7fffffff#32 (by decide) Cmp.new f hf
  have := asks_one (compact f) .binary (compact f).readBinary (fun _ _ _ _ _ => rfl) h Cmp.new _ h1
  have e : (0x7fffffff#32 : I32).toNat = 2147483647 := rfl
  omega

/-- Nor of frames. -/
theorem C207_framed_violated : ¬ C207_framed := by
  intro h
  have := h 1 Framed.new _ _ (C207_framed_asks_partial 0xffffffff#32 (by decide) 1)
  rw [be_length] at this
  exact absurd this (by decide)

/-- C207 does not hold. -/
theorem C207_violated : ¬ C207_statement := fun h => C207_binary_violated h.1

/-- What the readers of a protocol ask for: every buffer is below two gigabytes;
at most one is larger than the data there is, and no scalar; that one can only be
filled in part, so that nothing is left to be read. -/
theorem asks_partial {p : Proto π} (h1 : p.Have P.Once) (h2 : p.Have (P.AllAsks (· < 2 ^ 31))) (S : Schema) (L : FloatLib)
    (mem : List Nat → Nat) (msd : Int) (fuel : Nat) (cs : List AnyRead) (s : π) (inp : Bytes) :
    let m := AnyRead.calls p S L mem msd fuel cs
    (∀ n ∈ m.asks memory s inp, n < 2 ^ 31) ∧
    ((m.asks memory s inp).filter fun n => decide (max inp.length 8 < n)).length ≤ 1 ∧
    ((m.run memory s inp).2 ≠ [] → ∀ n ∈ m.asks memory s inp, n ≤ max inp.length 8) := by
  have hw := (once_composes.calls h1 (S := S) (L := L) (mem := mem) (msd := msd) fuel cs).weak s inp
  refine ⟨Prog.AllAsks.asks ((allAsks_composes _).calls h2 (S := S) (L := L) (mem := mem) (msd := msd) fuel cs s) memory inp, hw.one, ?_⟩
  intro hr
  exact large_eq_nil.1 (Classical.byContradiction fun hh => hr (hw.gone hh))

/-- C207, what remains, for the binary protocol.  Missing: the one buffer that
is larger than the data, `C207_binary_asks_partial`. -/
theorem C207_binary_partial (S : Schema) (L : FloatLib) (mem : List Nat → Nat) (msd : Int) (fuel : Nat) (cs : List AnyRead) (s : Bin)
    (inp : Bytes) :
    let m := AnyRead.calls binary S L mem msd fuel cs
    (∀ n ∈ m.asks memory s inp, n < 2 ^ 31) ∧
    ((m.asks memory s inp).filter fun n => decide (max inp.length 8 < n)).length ≤ 1 ∧
    ((m.run memory s inp).2 ≠ [] → ∀ n ∈ m.asks memory s inp, n ≤ max inp.length 8) :=
  asks_partial Bin.binary_once Bin.binary_asks S L mem msd fuel cs s inp

/-- C207, what remains, for the compact protocol.  Missing: as above. -/
theorem C207_compact_partial (f : Nat) (S : Schema) (L : FloatLib) (mem : List Nat → Nat) (msd : Int) (fuel : Nat) (cs : List AnyRead)
    (s : Cmp) (inp : Bytes) :
    let m := AnyRead.calls (compact f) S L mem msd fuel cs
    (∀ n ∈ m.asks memory s inp, n < 2 ^ 31) ∧
    ((m.asks memory s inp).filter fun n => decide (max inp.length 8 < n)).length ≤ 1 ∧
    ((m.run memory s inp).2 ≠ [] → ∀ n ∈ m.asks memory s inp, n ≤ max inp.length 8) :=
  asks_partial (Cmp.compact_once f) (Cmp.compact_asks f) S L mem msd fuel cs s inp

/-- C207, what remains, for frames. -/
theorem C207_framed_partial (k : Nat) (s : Framed) (inp : Bytes) :
    (∀ n ∈ (framedRead k).asks memory s inp, n < 2 ^ 32) ∧
    (((framedRead k).asks memory s inp).filter fun n => decide (max inp.length 8 < n)).length ≤ 1 ∧
    (((framedRead k).run memory s inp).2 ≠ [] → ∀ n ∈ (framedRead k).asks memory s inp, n ≤ max inp.length 8) := by
  have hw := (once_framedRead k).weak s inp
  refine ⟨Prog.AllAsks.asks (asks_framedRead k s) memory inp, hw.one, ?_⟩
  intro hr
  exact large_eq_nil.1 (Classical.byContradiction fun hh => hr (hw.gone hh))

/-- C207 under a read limit: all the buffers made together are no larger than
the limit, whatever is read, whatever arrives and over any transport. -/
theorem C207_limit_partial (N : Int) (S : Schema) (L : FloatLib) (mem : List Nat → Nat) (msd : Int) (fuel : Nat) (cs : List AnyRead)
    (s : Bin) (T : Transport σ) (t : σ) :
    (((do BinaryProtocol.setReadLength N; AnyRead.calls binary S L mem msd fuel cs : P Bin Unit).asks T s t).sum : Int) ≤ max N 0 :=
  (pays_composes.calls Bin.binary_pays (S := S) (L := L) (mem := mem) (msd := msd) fuel cs
    { s with readLength := N, checkReadLength := true } rfl).asks T t

/-- Seven bytes are allowed: the length and the text are read, the next length is refused. -/
example (S : Schema) (L : FloatLib) : (do
      BinaryProtocol.setReadLength 7
      AnyRead.calls binary S L (fun _ => 0) 0 0 [.string, .string] : P Bin Unit).asks memory Bin.default
    [0, 0, 0, 2, 65, 66, 127, 255, 255, 255] = [4, 2] := by
  kernel_rfl

end Thrift
