import Verif.Lemmas.Honest
import Verif.Lemmas.SkipTotal
import Verif.Lemmas.BinaryAgree
import Verif.Spec.RoundTrip
/-!
# Properties C01-C08: the binary protocol
-/

namespace Thrift
open BinaryProtocol

/-! ## C01 scalar round trip -/

/-- C01.  Every scalar written by the binary protocol is read back, whatever
precedes and follows it in the buffer.  `sw` and `sr` are any writer and any
reader without a read limit. -/
theorem C01_binary_scalar_roundtrip (sw sr : Bin) (hr : sr.checkReadLength = false) :
    (∀ v, RoundTrips (binary.writeBool v) sw binary.readBool sr v) ∧
    (∀ v, RoundTrips (binary.writeByte v) sw binary.readByte sr v) ∧
    (∀ v, RoundTrips (binary.writeI16 v) sw binary.readI16 sr v) ∧
    (∀ v, RoundTrips (binary.writeI32 v) sw binary.readI32 sr v) ∧
    (∀ v, RoundTrips (binary.writeI64 v) sw binary.readI64 sr v) ∧
    (∀ v, RoundTrips (binary.writeDouble v) sw binary.readDouble sr v) ∧
    (∀ v : Bytes, v.length < 2 ^ 31 → RoundTrips (binary.writeString v) sw binary.readString sr v) ∧
    (∀ v : Bytes, v.length < 2 ^ 31 → RoundTrips (binary.writeBinary v) sw binary.readBinary sr v) :=
  ⟨fun v => ⟨_, (Bin.emits_bool v sw).memory, (Bin.reads_bool v sr hr).memory⟩,
   fun v => ⟨_, (Bin.emits_byte v sw).memory, (Bin.reads_byte v sr hr).memory⟩,
   fun v => ⟨_, (Bin.emits_i16 v sw).memory, (Bin.reads_i16 v sr hr).memory⟩,
   fun v => ⟨_, (Bin.emits_i32 v sw).memory, (Bin.reads_i32 v sr hr).memory⟩,
   fun v => ⟨_, (Bin.emits_i64 v sw).memory, (Bin.reads_i64 v sr hr).memory⟩,
   fun v => ⟨_, (Bin.emits_double v sw).memory, (Bin.reads_double v sr hr).memory⟩,
   fun v hv => ⟨_, (Bin.emits_string v hv sw).memory, (Bin.reads_string v hv sr hr).memory⟩,
   fun v hv => ⟨_, (Bin.emits_binary v hv sw).memory, (Bin.reads_binary v hv sr hr).memory⟩⟩

example : RoundTrips (binary.writeI32 (-5)) Bin.default binary.readI32 (Bin.new true true) (-5) :=
  (C01_binary_scalar_roundtrip _ _ rfl).2.2.2.1 _

/-! ## C02 conformance to the wire format -/

/-- Of the bytes in place of a bool exactly 1 means true. -/
theorem C01_readBool (s : Bin) (hs : s.checkReadLength = false) (b : Byte) (rest : Bytes) :
    binary.readBool.run memory s (b :: rest) = (.ok ((decide (b = 1), none), s), rest) := by
  have h : Runs binary.readBool s s [b] (decide (b = 1), none) := by
    intro rest out
    show (BinaryProtocol.readBool).run duplex s _ = _
    simp only [BinaryProtocol.readBool, P.run_bind, Bin.reads_byte b s hs rest out, andThen_ok]
    rfl
  exact h.memory rest

example := C01_readBool Bin.default rfl 2 []

/-- C02.  The bytes written for a value are those of the Thrift binary
encoding. -/
theorem C02_binary_conforms (v : Val) (hv : v.WF) (s : Bin) (before : Bytes) :
    (writeVal binary v).run memory s before = (.ok (none, s), before ++ BinarySpec.encode v) :=
  (Bin.emits_val v s hv).memory before

/-- A struct holding a map from strings to lists of i16, and a bool. -/
def sampleVal : Val :=
  .struct (.cons 1 (.map 11 15 (.cons (.str [104, 105]) (.list 6 (.cons (.i16 (-2)) (.cons (.i16 7) .nil)))
    .nil)) (.cons 300 (.bool true) .nil))

theorem sampleVal_wf : sampleVal.WF := by
  simp [sampleVal, Val.WF, Fields.WF, Pairs.WF, Vals.WF, Val.type, IsWireType, Pairs.length, Vals.length]

example : (writeVal binary sampleVal).run memory Bin.default [] =
    (.ok (none, Bin.default), [] ++ [13, 0, 1, 11, 15, 0, 0, 0, 1, 0, 0, 0, 2, 104, 105, 6, 0, 0, 0, 2, 255, 254, 0, 7,
      2, 1, 44, 1, 0]) :=
  C02_binary_conforms sampleVal sampleVal_wf _ _

/-! ## C03 nested round trip -/

/-- C03.  Reading a written value tree gives the tree back and leaves exactly
what follows. -/
theorem C03_binary_value_roundtrip (v : Val) (hv : v.WF) (sw sr : Bin) (hr : sr.checkReadLength = false)
    (fuel : Nat) (hf : v.size ≤ fuel) :
    RoundTrips (writeVal binary v) sw (readVal binary fuel v.type) sr v :=
  ⟨_, (Bin.emits_val v sw hv).memory, (Bin.reads_val v sr fuel hr hv hf).memory⟩

example : RoundTrips (writeVal binary sampleVal) Bin.default (readVal binary 100 12) Bin.default sampleVal :=
  C03_binary_value_roundtrip sampleVal sampleVal_wf _ _ rfl 100 (by decide)

/-! ## C04 message header round trip -/

/-- C04.  A strictly written header is read by any reader, an old-style header
by a non-strict reader. -/
theorem C04_binary_message_roundtrip (name : Bytes) (hn : name.length < 2 ^ 31) (t q : I32)
    (ht : t.toNat < 256) (sw sr : Bin) (hr : sr.checkReadLength = false)
    (hmode : sw.strictWrite = true ∨ sr.strictRead = false) :
    RoundTrips (binary.writeMessageBegin name t q) sw binary.readMessageBegin sr (name, t, q) := by
  cases hw : sw.strictWrite with
  | true =>
    exact ⟨_, (Bin.emits_messageStrict name t q hn ht sw hw).memory,
      (Bin.reads_messageStrict name t q hn ht sr hr).memory⟩
  | false =>
    have hs : sr.strictRead = false := by simpa [hw] using hmode
    exact ⟨_, (Bin.emits_messageOld name t q hn sw hw).memory,
      (Bin.reads_messageOld name t q hn ht sr hr hs).memory⟩

example : RoundTrips (binary.writeMessageBegin [112] CALL 7) (Bin.new true true) binary.readMessageBegin
    (Bin.new true true) ([112], CALL, 7) :=
  C04_binary_message_roundtrip [112] (by decide) CALL 7 (by decide) _ _ rfl (.inl rfl)

/-- The header bytes are those of the specification (part of C02). -/
theorem C02_binary_message_conforms (name : Bytes) (hn : name.length < 2 ^ 31) (t q : I32)
    (ht : t.toNat < 256) (s : Bin) (before : Bytes) :
    (binary.writeMessageBegin name t q).run memory s before = (.ok (none, s), before ++
      if s.strictWrite then BinarySpec.messageStrict name t q else BinarySpec.messageOld name t q) := by
  cases hw : s.strictWrite with
  | true => exact (Bin.emits_messageStrict name t q hn ht s hw).memory before
  | false => exact (Bin.emits_messageOld name t q hn s hw).memory before

example : (binary.writeMessageBegin [112] CALL 7).run memory Bin.default [] =
    (.ok (none, Bin.default), [] ++ [128, 1, 0, 1, 0, 0, 0, 1, 112, 0, 0, 0, 7]) :=
  C02_binary_message_conforms [112] (by decide) CALL 7 (by decide) _ _

/-! ## C05 version gate -/

/-- Leading words that a reader must reject for their version: negative ones
without the version 0x8001 in the top half, and for strict readers all
non-negative ones. -/
def RejectedWord (strict : Bool) (w : I32) : Prop :=
  (w.toInt < 0 ∧ w.toNat / 65536 ≠ 0x8001) ∨ (0 ≤ w.toInt ∧ strict = true)

/-- C05, rejection: BAD_VERSION after exactly the first word. -/
theorem C05_binary_version_rejected (w : I32) (rest : Bytes) (s : Bin) (hs : s.checkReadLength = false)
    (h : RejectedWord s.strictRead w) :
    ∃ hdr msg, (binary.readMessageBegin).run memory s (be 4 w.toNat ++ rest) =
      (.ok ((hdr, some ⟨.protocol, 4, msg⟩), s), rest) := by
  have key : ∃ hdr msg, Runs readMessageBegin s s (be 4 w.toNat) (hdr, some ⟨.protocol, 4, msg⟩) := by
    rcases h with ⟨hneg, hv⟩ | ⟨hpos, hstrict⟩
    · refine ⟨([], w &&& 0x0ff, 0), ascii "Bad version in ReadMessageBegin", ?_⟩
      refine Runs.congr (a := be 4 w.toNat ++ []) ?_ (by simp)
      unfold readMessageBegin
      rstep (Bin.reads_i32 w s hs)
      have : w.signExtend 64 &&& VERSION_MASK ≠ VERSION_1.setWidth 64 := fun h => hv ((version_ok w).1 h)
      simp only [hneg, this, if_true, ne_eq, not_false_eq_true]
      exact Runs.pure _ _
    · refine ⟨([], 0, 0), ascii "Missing version in ReadMessageBegin", ?_⟩
      refine Runs.congr (a := be 4 w.toNat ++ ([] ++ [])) ?_ (by simp)
      unfold readMessageBegin
      rstep (Bin.reads_i32 w s hs)
      have : ¬ w.toInt < 0 := by omega
      simp only [this, if_false]
      refine Runs.bind (r := s) (s' := s) (fun _ _ => rfl) ?_
      simp only [hstrict, if_true]
      exact Runs.pure _ _
  obtain ⟨hdr, msg, hk⟩ := key
  exact ⟨hdr, msg, hk.memory rest⟩

example : ∃ hdr msg, (binary.readMessageBegin).run memory Bin.default (be 4 (0x80020001#32).toNat ++ [1, 2]) =
      (.ok ((hdr, some ⟨.protocol, 4, msg⟩), Bin.default), [1, 2]) :=
  C05_binary_version_rejected 0x80020001#32 _ _ rfl (.inl (by decide))

/-- C05, acceptance: no other leading word is rejected for its version, whatever
follows. -/
theorem C05_binary_version_accepted (w : I32) (rest : Bytes) (s : Bin) (hs : s.checkReadLength = false)
    (h : ¬ RejectedWord s.strictRead w) :
    ∃ hdr err s' left, (binary.readMessageBegin).run memory s (be 4 w.toNat ++ rest) =
      (.ok ((hdr, err), s'), left) ∧ ∀ e, err = some e → e.code ≠ BAD_VERSION := by
  -- every error of the later reads comes from `ReadAll`
  let Q : ∀ {α : Type}, α × GoErr → Bin → Bytes → Prop :=
    fun r s' _ => s' = s ∧ (r.2 = none ∨ r.2 = some readAllErr)
  have hb : ∀ n i, Wp (readAllBuf n) s i Q NoPanic := by
    intro n i out
    rw [Bin.run_readAllBuf n s hs]
    by_cases hn : n ≤ i.length
    · exact .inl ⟨_, _, _, by rw [if_pos hn], rfl, .inl rfl⟩
    · exact .inl ⟨_, _, _, by rw [if_neg hn], rfl, .inr rfl⟩
  have hi : ∀ i, Wp readI32 s i Q NoPanic := fun i => Wp.bind (hb 4 i) fun _ _ _ h => Wp.pure h
  have hy : ∀ i, Wp readByte s i Q NoPanic := fun i => Wp.bind (hb 1 i) fun _ _ _ h => Wp.pure h
  have hsb : ∀ n i, Wp (readStringBody n) s i Q NoPanic := by
    intro n i
    unfold readStringBody
    refine Wp.ite (fun _ => Wp.pure ⟨rfl, .inl rfl⟩) fun _ => ?_
    refine Wp.bind (Q := fun e s' _ => e = none ∧ s' = s)
      (fun out => .inl ⟨_, _, _, Bin.run_check n s hs duplex _, rfl, rfl⟩) fun e s' j h => ?_
    obtain ⟨rfl, rfl⟩ := h
    refine Wp.ite (fun h => by simp at h) fun _ => ?_
    refine Wp.bind (Q := fun r t _ => t = s' ∧ (r.err = none ∨ r.err = some readAllErr))
      (Wp.readAll (fun _ => ⟨rfl, .inl rfl⟩) (fun _ => ⟨rfl, .inr rfl⟩)) fun r t j h => Wp.pure ?_
    refine ⟨h.1, ?_⟩
    rcases h.2 with h | h <;> simp [h]
  have hstr : ∀ i, Wp readString s i Q NoPanic := by
    intro i
    unfold readString
    refine Wp.bind (hi i) fun r s' j hr => ?_
    obtain ⟨rfl, hr⟩ := hr
    exact Wp.ite (fun _ => Wp.pure ⟨rfl, hr⟩) fun _ => hsb _ j
  have pe : ∀ e : GoErr, e = none ∨ e = some readAllErr →
      protocolFromOsError e = none ∨ protocolFromOsError e = some readAllErr := by
    rintro e (rfl | rfl)
    · exact .inl rfl
    · exact .inr rfl
  have hmain : Wp readMessageBegin s (be 4 w.toNat ++ rest) Q NoPanic := by
    unfold readMessageBegin
    refine Wp.bind (Q := fun r s' _ => r = (w, none) ∧ s' = s)
      (fun out => .inl ⟨_, _, _, Bin.reads_i32 w s hs rest out, rfl, rfl⟩) fun r s' i hr => ?_
    obtain ⟨rfl, rfl⟩ := hr
    refine Wp.ite (fun h => by simp at h) fun _ => ?_
    refine Wp.ite (fun hneg => ?_) fun hpos => ?_
    · refine Wp.ite (fun hv => ?_) fun hv => ?_
      · exact absurd (.inl ⟨hneg, fun h' => hv ((version_ok w).2 h')⟩) h
      · refine Wp.bind (hstr i) fun r t j hr => ?_
        obtain ⟨rfl, hr⟩ := hr
        refine Wp.ite (fun _ => Wp.pure ⟨rfl, pe _ hr⟩) fun _ => ?_
        refine Wp.bind (hi j) fun r t l hr => ?_
        obtain ⟨rfl, hr⟩ := hr
        exact Wp.ite (fun _ => Wp.pure ⟨rfl, pe _ hr⟩) fun _ => Wp.pure ⟨rfl, .inl rfl⟩
    · refine Wp.bind (Q := fun t s'' _ => t = s' ∧ s'' = s') (Wp.get ⟨rfl, rfl⟩) fun t s'' i ht => ?_
      obtain ⟨rfl, rfl⟩ := ht
      refine Wp.ite (fun hst => ?_) fun _ => ?_
      · exact absurd (.inr ⟨by simpa using hpos, hst⟩) h
      · refine Wp.bind (hsb _ i) fun r u j hr => ?_
        obtain ⟨rfl, hr⟩ := hr
        refine Wp.ite (fun _ => Wp.pure ⟨rfl, hr⟩) fun _ => ?_
        refine Wp.bind (hy j) fun r u l hr => ?_
        obtain ⟨rfl, hr⟩ := hr
        refine Wp.ite (fun _ => Wp.pure ⟨rfl, hr⟩) fun _ => ?_
        refine Wp.bind (hi l) fun r u l hr => ?_
        obtain ⟨rfl, hr⟩ := hr
        exact Wp.ite (fun _ => Wp.pure ⟨rfl, hr⟩) fun _ => Wp.pure ⟨rfl, .inl rfl⟩
  rcases hmain.memory with ⟨⟨hdr, err⟩, s', left, h1, _, h2⟩ | ⟨_, _, h⟩
  · refine ⟨hdr, err, s', left, h1, ?_⟩
    rintro e rfl
    rcases h2 with h2 | h2
    · simp at h2
    · simp only [Option.some.injEq] at h2
      subst h2
      decide
  · exact h.elim

example : ¬ RejectedWord true 0x80010003#32 := by
  rintro (h | h) <;> revert h <;> decide

/-! ## C06 truncation -/

/-- `m` returns an error on every proper prefix of `bs`. -/
def ReportsTruncation (m : P π (α × GoErr)) (s : π) (bs : Bytes) : Prop :=
  ∀ k, k < bs.length → ∃ a e s' left, m.run memory s (bs.take k) = (.ok ((a, some e), s'), left)

theorem Honest.reports {m : P π (α × GoErr)} {s s' : π} {bs : Bytes} {a : α}
    (hh : Honest Prod.snd m) (h : Reads m s s' bs a) : ReportsTruncation m s bs := by
  intro k hk
  obtain ⟨⟨b, e⟩, s'', i, h1, h2⟩ := hh.truncated h k hk []
  obtain ⟨e, rfl⟩ := Option.isSome_iff_exists.1 h2
  exact ⟨b, e, s'', i, memory_of_reads (m s) _ _ [] _ h1⟩

/-- C06, scalars: every read call reports the truncation of what was written. -/
theorem C06_binary_scalar_truncation (s : Bin) (hs : s.checkReadLength = false) :
    (∀ v : Byte, ReportsTruncation binary.readByte s (BinarySpec.encode (.byte v))) ∧
    (∀ v, ReportsTruncation binary.readBool s (BinarySpec.encode (.bool v))) ∧
    (∀ v, ReportsTruncation binary.readI16 s (BinarySpec.encode (.i16 v))) ∧
    (∀ v, ReportsTruncation binary.readI32 s (BinarySpec.encode (.i32 v))) ∧
    (∀ v, ReportsTruncation binary.readI64 s (BinarySpec.encode (.i64 v))) ∧
    (∀ v, ReportsTruncation binary.readDouble s (BinarySpec.encode (.double v))) ∧
    (∀ v : Bytes, v.length < 2 ^ 31 → ReportsTruncation binary.readString s (BinarySpec.encode (.str v))) ∧
    (∀ v : Bytes, v.length < 2 ^ 31 → ReportsTruncation binary.readBinary s (BinarySpec.encode (.str v))) :=
  ⟨fun v => Bin.honest_byte.reports (Bin.reads_byte v s hs),
   fun v => Bin.honest_bool.reports (Bin.reads_bool v s hs),
   fun v => Bin.honest_i16.reports (Bin.reads_i16 v s hs),
   fun v => Bin.honest_i32.reports (Bin.reads_i32 v s hs),
   fun v => Bin.honest_i64.reports (Bin.reads_i64 v s hs),
   fun v => Bin.honest_double.reports (Bin.reads_double v s hs),
   fun v hv => Bin.honest_string.reports (Bin.reads_string v hv s hs),
   fun v hv => Bin.honest_binary.reports (Bin.reads_binary v hv s hs)⟩

/-- C06, whole values. -/
theorem C06_binary_value_truncation (v : Val) (hv : v.WF) (s : Bin) (hs : s.checkReadLength = false)
    (fuel : Nat) (hf : v.size ≤ fuel) :
    ReportsTruncation (readVal binary fuel v.type) s (BinarySpec.encode v) :=
  (Bin.honest_val fuel v.type).reports (Bin.reads_val v s fuel hs hv hf)

/-- C06, message headers in both styles. -/
theorem C06_binary_message_truncation (name : Bytes) (hn : name.length < 2 ^ 31) (t q : I32)
    (ht : t.toNat < 256) (s : Bin) (hs : s.checkReadLength = false) :
    ReportsTruncation binary.readMessageBegin s (BinarySpec.messageStrict name t q) ∧
    (s.strictRead = false → ReportsTruncation binary.readMessageBegin s (BinarySpec.messageOld name t q)) :=
  ⟨Bin.honest_messageBegin.reports (Bin.reads_messageStrict name t q hn ht s hs),
   fun h => Bin.honest_messageBegin.reports (Bin.reads_messageOld name t q hn ht s hs h)⟩

example : ReportsTruncation (readVal binary 100 12) Bin.default (BinarySpec.encode sampleVal) :=
  C06_binary_value_truncation sampleVal sampleVal_wf _ rfl 100 (by decide)

/-! ## C07 negative lengths -/

/-- C07 in full: a negative length prefix gives an error. -/
def C07_statement : Prop :=
  ∀ (n : I32) (rest : Bytes), n.toInt < 0 →
    (∃ v e s' left, binary.readString.run memory Bin.default (be 4 n.toNat ++ rest) =
      (.ok ((v, some e), s'), left)) ∧
    (∃ v e s' left, binary.readBinary.run memory Bin.default (be 4 n.toNat ++ rest) =
      (.ok ((v, some e), s'), left))

/-- What `ReadString` does on every negative length: it reports success with an
empty string. -/
theorem C07_readString_negative (n : I32) (rest : Bytes) (hn : n.toInt < 0) (s : Bin)
    (hs : s.checkReadLength = false) :
    binary.readString.run memory s (be 4 n.toNat ++ rest) = (.ok (([], none), s), rest) := by
  have h : Reads readString s s (be 4 n.toNat) [] := by
    refine Runs.congr (a := be 4 n.toNat ++ []) ?_ (by simp)
    unfold readString
    rstep (Bin.reads_i32 n s hs)
    simp only [readStringBody, hn, if_true]
    exact Runs.pure _ _
  exact h.memory rest

/-- What `ReadBinary` does on every negative length: it panics. -/
theorem C07_readBinary_negative (n : I32) (rest : Bytes) (hn : n.toInt < 0) (s : Bin)
    (hs : s.checkReadLength = false) :
    ∃ left, binary.readBinary.run memory s (be 4 n.toNat ++ rest) = (.panic, left) := by
  have h : Wp readBinary s (be 4 n.toNat ++ rest) (fun _ _ _ => False) (fun _ => True) := by
    unfold readBinary
    refine Wp.bind (Q := fun r s' _ => r = (n, none) ∧ s' = s)
      (fun out => .inl ⟨_, _, _, Bin.reads_i32 n s hs rest out, rfl, rfl⟩) fun r s' i hr => ?_
    obtain ⟨rfl, rfl⟩ := hr
    refine Wp.ite (fun h => by simp at h) fun _ => ?_
    refine Wp.bind (Q := fun e s'' _ => e = none ∧ s'' = s')
      (fun out => .inl ⟨_, _, _, Bin.run_check _ s' hs duplex _, rfl, rfl⟩) fun e s'' j h => ?_
    obtain ⟨rfl, rfl⟩ := h
    exact Wp.ite (fun h => by simp at h) fun _ => Wp.ite (fun _ => Wp.panic trivial) fun h => absurd hn h
  rcases h.memory with ⟨_, _, _, _, h⟩ | ⟨left, h, _⟩
  · exact h.elim
  · exact ⟨left, h⟩

/-- C07 does not hold. -/
theorem C07_violated : ¬ C07_statement := by
  intro h
  obtain ⟨⟨v, e, s', left, h1⟩, _⟩ := h (-1) [] (by decide)
  rw [C07_readString_negative (-1) [] (by decide) _ rfl] at h1
  simp at h1

/-- C07, what remains: under a read limit that is already used up a negative
length is reported as an error (no success, no panic), because the prefix itself
no longer fits.  Missing: readers without a limit, where `ReadString` succeeds
and `ReadBinary` panics. -/
theorem C07_negative_length_partial (n : I32) (rest : Bytes) (s : Bin) (hs : s.checkReadLength = true)
    (hl : s.readLength < 4) :
    (∃ v e s' left, binary.readString.run memory s (be 4 n.toNat ++ rest) = (.ok ((v, some e), s'), left)) ∧
    (∃ v e s' left, binary.readBinary.run memory s (be 4 n.toNat ++ rest) = (.ok ((v, some e), s'), left)) := by
  have hi : ∀ i, Wp readI32 s i (fun r _ _ => r.2.isSome) NoPanic := by
    intro i out
    refine .inl ?_
    simp only [readI32, readAllBuf, P.run_bind, Bin.run_check_limited _ s hs, andThen_ok]
    have : s.readLength - ((4 : Nat) : Int) < 0 := by omega
    simp only [this, if_true]
    exact ⟨_, _, _, rfl, rfl⟩
  constructor
  · have h : Wp readString s (be 4 n.toNat ++ rest) (fun r _ _ => r.2.isSome) NoPanic := by
      unfold readString
      exact Wp.bind (hi _) fun r s' i hr => Wp.ite (fun _ => Wp.pure hr) fun h => absurd hr h
    rcases h.memory with ⟨⟨v, e⟩, s', left, h1, h2⟩ | ⟨_, _, h⟩
    · obtain ⟨e, rfl⟩ := Option.isSome_iff_exists.1 h2
      exact ⟨v, e, s', left, h1⟩
    · exact h.elim
  · have h : Wp readBinary s (be 4 n.toNat ++ rest) (fun r _ _ => r.2.isSome) NoPanic := by
      unfold readBinary
      exact Wp.bind (hi _) fun r s' i hr => Wp.ite (fun _ => Wp.pure hr) fun h => absurd hr h
    rcases h.memory with ⟨⟨v, e⟩, s', left, h1, h2⟩ | ⟨_, _, h⟩
    · obtain ⟨e, rfl⟩ := Option.isSome_iff_exists.1 h2
      exact ⟨v, e, s', left, h1⟩
    · exact h.elim

example : ∃ v e s' left, binary.readBinary.run memory { Bin.default with checkReadLength := true, readLength := 3 }
    (be 4 (0xffffffff#32).toNat ++ [1]) = (.ok ((v, some e), s'), left) :=
  (C07_negative_length_partial 0xffffffff#32 [1] _ rfl (by decide)).2

/-! ## C08 read limit -/

/-- The read calls of the binary protocol. -/
inductive BinRead where
  | message | field | map | list | set | bool | byte | i16 | i32 | i64 | double | string | binary
  | structBegin | structEnd | fieldEnd | mapEnd | listEnd | setEnd | messageEnd
  deriving Repr, DecidableEq

/-- One read call; only its error is kept. -/
def BinRead.call : BinRead → P Bin (Unit × GoErr)
  | .message => do let r ← Thrift.binary.readMessageBegin; return ((), r.2)
  | .field => do let r ← Thrift.binary.readFieldBegin; return ((), r.2)
  | .map => do let r ← Thrift.binary.readMapBegin; return ((), r.2)
  | .list => do let r ← Thrift.binary.readListBegin; return ((), r.2)
  | .set => do let r ← Thrift.binary.readSetBegin; return ((), r.2)
  | .bool => do let r ← Thrift.binary.readBool; return ((), r.2)
  | .byte => do let r ← Thrift.binary.readByte; return ((), r.2)
  | .i16 => do let r ← Thrift.binary.readI16; return ((), r.2)
  | .i32 => do let r ← Thrift.binary.readI32; return ((), r.2)
  | .i64 => do let r ← Thrift.binary.readI64; return ((), r.2)
  | .double => do let r ← Thrift.binary.readDouble; return ((), r.2)
  | .string => do let r ← Thrift.binary.readString; return ((), r.2)
  | .binary => do let r ← Thrift.binary.readBinary; return ((), r.2)
  | .structBegin => do let r ← Thrift.binary.readStructBegin; return ((), r.2)
  | .structEnd => do let e ← Thrift.binary.readStructEnd; return ((), e)
  | .fieldEnd => do let e ← Thrift.binary.readFieldEnd; return ((), e)
  | .mapEnd => do let e ← Thrift.binary.readMapEnd; return ((), e)
  | .listEnd => do let e ← Thrift.binary.readListEnd; return ((), e)
  | .setEnd => do let e ← Thrift.binary.readSetEnd; return ((), e)
  | .messageEnd => do let e ← Thrift.binary.readMessageEnd; return ((), e)

/-- Any sequence of read calls, carrying on after errors. -/
def BinRead.calls : List BinRead → P Bin Unit
  | [] => return ()
  | c :: cs => do let _ ← c.call; BinRead.calls cs

theorem BinRead.limited_call (c : BinRead) : Bin.Limited Bin.Fine c.call := by
  cases c with
  | message => exact Bin.Limited.map Bin.limited_messageBegin
  | field => exact Bin.Limited.map Bin.limited_fieldBegin
  | map => exact Bin.Limited.map Bin.limited_mapBegin
  | list => exact Bin.Limited.map Bin.limited_listBegin
  | set => exact Bin.Limited.map Bin.limited_listBegin
  | bool => exact Bin.Limited.map Bin.limited_bool
  | byte => exact Bin.Limited.map Bin.limited_byte
  | i16 => exact Bin.Limited.map Bin.limited_i16
  | i32 => exact Bin.Limited.map Bin.limited_i32
  | i64 => exact Bin.Limited.map Bin.limited_i64
  | double => exact Bin.Limited.map Bin.limited_double
  | string => exact Bin.Limited.map Bin.limited_string
  | binary => exact Bin.Limited.map Bin.limited_binary
  | _ => exact Bin.Limited.pure _

theorem BinRead.agrees_call (c : BinRead) : Bin.Agrees Prod.snd c.call := by
  cases c with
  | message => exact Bin.Agrees.map Bin.agrees_messageBegin
  | field => exact Bin.Agrees.map Bin.agrees_fieldBegin
  | map => exact Bin.Agrees.map Bin.agrees_mapBegin
  | list => exact Bin.Agrees.map Bin.agrees_listBegin
  | set => exact Bin.Agrees.map Bin.agrees_listBegin
  | bool => exact Bin.Agrees.map Bin.agrees_bool
  | byte => exact Bin.Agrees.map Bin.agrees_byte
  | i16 => exact Bin.Agrees.map Bin.agrees_i16
  | i32 => exact Bin.Agrees.map Bin.agrees_i32
  | i64 => exact Bin.Agrees.map Bin.agrees_i64
  | double => exact Bin.Agrees.map Bin.agrees_double
  | string => exact Bin.Agrees.map Bin.agrees_string
  | binary => exact Bin.Agrees.map Bin.agrees_binary
  | _ => exact Bin.Agrees.pure _ _

theorem BinRead.limited_calls (cs : List BinRead) : Bin.Limited (fun _ => False) (BinRead.calls cs) := by
  induction cs with
  | nil => exact Bin.Limited.pure _
  | cons c cs ih =>
    exact Bin.Limited.bind (ok1 := fun _ => False) (c.limited_call.mono fun _ h => h.elim)
      (fun a => ih.mono fun _ h => h.1) (fun _ _ _ _ _ _ _ _ h => h)

/-- C08, bound: after a limit of `N` bytes has been set, any sequence of read
calls consumes at most `N` bytes, however it ends. -/
theorem C08_binary_limit_bound (N : Int) (cs : List BinRead) (s : Bin) (inp : Bytes) :
    ∃ n, (n : Int) ≤ max N 0 ∧
      ((do setReadLength N; BinRead.calls cs : P Bin Unit).run memory s inp).2.length + n = inp.length := by
  have h := BinRead.limited_calls cs { s with readLength := N, checkReadLength := true } inp rfl
  have he : (do setReadLength N; BinRead.calls cs : P Bin Unit).run memory s inp =
      (BinRead.calls cs).run memory { s with readLength := N, checkReadLength := true } inp := rfl
  rw [he]
  rcases h.memory with ⟨a, s', left, h1, h2⟩ | ⟨left, h1, h2⟩
  · rw [h1]
    have h3 := h2.2.1; have h4 := h2.2.2.1
    simp only at h4
    exact ⟨inp.length - left.length, by omega, by simp only; omega⟩
  · rw [h1]
    have h3 := h2.1; have h4 := h2.2
    simp only at h4
    exact ⟨inp.length - left.length, by omega, by simp only; omega⟩

/-- C08, errors: a call that would take more bytes than the limit leaves returns
an error; a call without error has paid for exactly what it consumed. -/
theorem C08_binary_limit_error (c : BinRead) (s : Bin) (hs : s.checkReadLength = true) (inp : Bytes) :
    (∀ e u left, c.call.run memory (Bin.unlimited s) inp = (.ok (((), e), u), left) →
      max s.readLength 0 < inp.length - left.length →
      ∃ err s' left', c.call.run memory s inp = (.ok (((), some err), s'), left')) ∧
    (∀ s' left, c.call.run memory s inp = (.ok (((), none), s'), left) → 0 ≤ s.readLength →
      s'.readLength = s.readLength - (inp.length - left.length) ∧ 0 ≤ s'.readLength) := by
  have lim := c.limited_call s inp hs []
  constructor
  · intro e u left hu hlt
    rcases c.agrees_call s (inp, []) with ⟨⟨_, a⟩, s', t', h, he⟩ | ⟨r, t', h, h'⟩
    · obtain ⟨err, rfl⟩ := Option.isSome_iff_exists.1 he
      rcases lim with ⟨a2, s2, i2, h2, _⟩ | ⟨i2, h2, _⟩
      · rw [h] at h2
        simp only [Prod.mk.injEq] at h2
        obtain ⟨_, rfl⟩ := h2
        exact ⟨err, s', i2, memory_of_reads (c.call s) _ _ [] _ h⟩
      · rw [h] at h2; simp at h2
    · exfalso
      rcases lim with ⟨a2, s2, i2, h2, hm⟩ | ⟨i2, h2, _⟩
      · rw [h] at h2
        simp only [Prod.mk.injEq] at h2
        obtain ⟨rfl, rfl⟩ := h2
        have h3 := memory_of_reads (c.call (Bin.unlimited s)) _ _ [] _ h'
        have h4 : (c.call).run memory (Bin.unlimited s) inp = (Bin.forget (.ok (a2, s2)), i2) := h3
        rw [hu] at h4
        simp only [Prod.mk.injEq] at h4
        have h5 := hm.2.2.1
        rw [← h4.2] at h5
        omega
      · rw [h] at h2
        simp only [Prod.mk.injEq] at h2
        obtain ⟨rfl, rfl⟩ := h2
        have h3 : (c.call).run memory (Bin.unlimited s) inp = (Bin.forget .panic, i2) :=
          memory_of_reads (c.call (Bin.unlimited s)) _ _ [] _ h'
        rw [hu] at h3
        simp [Bin.forget] at h3
  · intro s' left h h0
    rcases lim with ⟨a2, s2, i2, h2, hm⟩ | ⟨i2, h2, _⟩
    · have h3 : (c.call).run memory s inp = (.ok (a2, s2), i2) := memory_of_reads (c.call s) _ _ [] _ h2
      rw [h] at h3
      simp only [Prod.mk.injEq, Res.ok.injEq] at h3
      obtain ⟨⟨rfl, rfl⟩, rfl⟩ := h3
      exact hm.2.2.2 rfl h0
    · have h3 : (c.call).run memory s inp = (.panic, i2) := memory_of_reads (c.call s) _ _ [] _ h2
      rw [h] at h3; simp at h3

example : ∃ err s' left', BinRead.i32.call.run memory { Bin.default with checkReadLength := true, readLength := 3 }
    [0, 0, 0, 1, 9] = (.ok (((), some err), s'), left') :=
  (C08_binary_limit_error .i32 _ rfl [0, 0, 0, 1, 9]).1 none Bin.default [9] (by decide) (by decide)

end Thrift
