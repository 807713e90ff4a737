import Verif.Lemmas.Stops
import Verif.Props.Service
/-!
# Nothing runs for ever

`stuck` is what a run of the model gives when its fuel is used up, which stands for
a loop or a recursion of the code that goes on for longer than the fuel.
-/

namespace Thrift

/-! ## C125 -/

/-- C125: comparing two values, of whatever type and against whatever declared type,
comes to an end. -/
theorem C125 (L : FloatLib) (p : TType) (i j : Dyn) : (∃ r, compare L p i j = .ok r) ∨ compare L p i j = .panic := by
  have := compare_halts L p i j
  cases h : compare L p i j with
  | ok r => exact .inl ⟨r, rfl⟩
  | panic => exact .inr rfl
  | stuck => exact absurd h this

/-- It looks no deeper than the values are nested: any larger bound on the recursion
gives the same result. -/
theorem C125_depth (L : FloatLib) (n : Nat) (p : TType) (i j : Dyn) (hi : i.depth < n) (hj : j.depth < n) :
    compareFuel L n p i j = compare L p i j := compareFuel_compare L n p i j hi hj

/-- So does everything the containers do with comparisons. -/
theorem C125_containers (L : FloatLib) : (∀ (l : TList) d, l.push L d ≠ .stuck) ∧ (∀ (s : TSet) d, s.add L d ≠ .stuck) ∧
    ∀ (m : TMap) k v, m.set L k v ≠ .stuck :=
  ⟨push_halts L, add_halts L, set_halts L⟩

/-- Two lists of lists are compared to the end. -/
example : compare noFloats TT.LIST (.list 1 TT.LIST [.list 2 TT.I32 [.int32 1]]) (.list 3 TT.LIST [.list 4 TT.I32 [.int32 2]]) = .ok (-1, true) := by
  decide +kernel

/-- Panics do occur. -/
example : compare noFloats 5 (.int32 1) (.int32 2) = .panic := by decide +kernel

/-! ## C126 -/

/-- C126: whatever arrives on the connection, `Process` over the binary protocol
returns or panics. -/
theorem C126_binary {T : Transport σ} {inn out buf : σ → Bytes} (E : Endpoint T inn out buf) (S : Schema) (sv : Service η) (L : FloatLib)
    (mem : List Nat → Nat) (msd : Int) (s : Server Bin Bin η) (t : σ) :
    ∃ N, ∀ fuel, N ≤ fuel → ((process binary binary S L mem msd fuel sv).run T s t).1 ≠ .stuck := by
  obtain ⟨N, hN⟩ := process_stops (binary_digests _) binary_calmWrites.halts S sv L mem msd s (inn t) (out t ++ buf t) (Nat.lt_succ_self _)
  refine ⟨N, fun fuel hf => ?_⟩
  obtain ⟨t', h, -⟩ := E.faithful.simulateP (process binary binary S L mem msd fuel sv) s t
  rw [h]
  exact hN.up (le_process (Proto.Le.refl _) (Proto.Le.refl _) S L mem msd hf sv)

/-- The same over the compact protocol, where the number of bytes of a varint is not
limited by the reader. -/
theorem C126_compact {T : Transport σ} {inn out buf : σ → Bytes} (E : Endpoint T inn out buf) (S : Schema) (sv : Service η) (L : FloatLib)
    (mem : List Nat → Nat) (msd : Int) (s : Server Cmp Cmp η) (t : σ) :
    ∃ N, ∀ fuel, N ≤ fuel → ((process (compact fuel) (compact fuel) S L mem msd fuel sv).run T s t).1 ≠ .stuck := by
  obtain ⟨N, hN⟩ := process_stops (compact_digests ((inn t).length + 1)) (compact_haltsWrites ((inn t).length + 1)) S sv L mem msd s (inn t)
    (out t ++ buf t) (Nat.lt_succ_self _)
  refine ⟨max N ((inn t).length + 1), fun fuel hf => ?_⟩
  obtain ⟨t', h, -⟩ := E.faithful.simulateP (process (compact fuel) (compact fuel) S L mem msd fuel sv) s t
  rw [h]
  have hc := compact_le (show (inn t).length + 1 ≤ fuel by omega)
  exact hN.up (le_process hc hc S L mem msd (by omega) sv)

/-- The hypotheses are met. -/
example := C126_binary pipe_server sumSchema sumService noFloats (fun _ => 0) 64 ⟨Bin.default, Bin.default, 0⟩
example := C126_compact pipe_server sumSchema sumService noFloats (fun _ => 0) 64 ⟨Cmp.new, Cmp.new, 0⟩

/-! ## C127 -/

/-- C127: whatever arrives on the connection, a call of a client over the binary
protocol returns or panics. -/
theorem C127_binary {T : Transport σ} {inn out buf : σ → Bytes} (E : Endpoint T inn out buf) (S : Schema) (L : FloatLib)
    (mem : List Nat → Nat) (msd : Int) (m : Method) (args : Attrs) (c : Client Bin) (t : σ) :
    ∃ N, ∀ fuel, N ≤ fuel → ((Client.call binary S L mem msd fuel m args).run T c t).1 ≠ .stuck := by
  refine ⟨max ((inn t).length + 3) (sizeOf args + 1), fun fuel hf => ?_⟩
  obtain ⟨t', h, -⟩ := E.faithful.simulateP (Client.call binary S L mem msd fuel m args) c t
  rw [h]
  exact call_stops (binary_digests _) binary_calmWrites.halts S L mem msd m args c (inn t) (out t ++ buf t) (Nat.lt_succ_self _) fuel
    (by omega) (by omega)

/-- The same over the compact protocol. -/
theorem C127_compact {T : Transport σ} {inn out buf : σ → Bytes} (E : Endpoint T inn out buf) (S : Schema) (L : FloatLib)
    (mem : List Nat → Nat) (msd : Int) (m : Method) (args : Attrs) (c : Client Cmp) (t : σ) :
    ∃ N, ∀ fuel, N ≤ fuel → ((Client.call (compact fuel) S L mem msd fuel m args).run T c t).1 ≠ .stuck := by
  refine ⟨max ((inn t).length + 3) (sizeOf args + 1), fun fuel hf => ?_⟩
  obtain ⟨t', h, -⟩ := E.faithful.simulateP (Client.call (compact fuel) S L mem msd fuel m args) c t
  rw [h]
  exact call_stops (compact_digests _) (compact_haltsWrites _) S L mem msd m args c (inn t) (out t ++ buf t) (by omega) fuel (by omega) (by omega)

example := C127_binary pipe_server sumSchema noFloats (fun _ => 0) 64 addMethod [(1, .int32 3)] (Client.ofFactory Bin.default)
example := C127_compact pipe_server sumSchema noFloats (fun _ => 0) 64 addMethod [(1, .int32 3)] (Client.ofFactory Cmp.new)

/-! ## C128 -/

/-- C128: whatever bytes arrive, a processor over the compact protocol returns. -/
def C128_statement : Prop :=
  ∀ (η : Type) (S : Schema) (sv : Service η) (L : FloatLib) (mem : List Nat → Nat) (msd : Int) (s : Server Cmp Cmp η) (inp out : Bytes),
    ∃ N, ∀ fuel, N ≤ fuel → ((process (compact fuel) (compact fuel) S L mem msd fuel sv).run pipeServer s (inp, out)).1 ≠ .panic

/-- A header with a negative length for the name. -/
def negativeName : Bytes := [0x82, 0x21, 0, 0xff, 0xff, 0xff, 0xff, 0x0f]

/-- These eight bytes make every processor panic, in every state. -/
theorem C128_attack (S : Schema) (sv : Service η) (L : FloatLib) (mem : List Nat → Nat) (msd : Int) (fuel : Nat) (hf : 5 ≤ fuel)
    (s : Server Cmp Cmp η) (rest out : Bytes) :
    ((process (compact fuel) (compact fuel) S L mem msd fuel sv).run pipeServer s (negativeName ++ rest, out)).1 = .panic := by
  obtain ⟨n, rfl⟩ := Nat.exists_eq_add_of_le' hf
  kernel_rfl

/-- C128 does not hold. -/
theorem C128_violated : ¬ C128_statement := by
  intro h
  obtain ⟨N, h⟩ := h I32 sumSchema sumService noFloats (fun _ => 0) 64 ⟨Cmp.new, Cmp.new, 0⟩ negativeName []
  exact h (N + 5) (by omega) (by have := C128_attack sumSchema sumService noFloats (fun _ => 0) 64 (N + 5) (by omega) ⟨Cmp.new, Cmp.new, 0⟩ [] []; simpa using this)

/-- A client panics on the same bytes, whatever it had asked for. -/
theorem C128_client_violated (S : Schema) (L : FloatLib) (mem : List Nat → Nat) (msd : Int) (fuel : Nat) (hf : 5 ≤ fuel) (m : Method)
    (f i : Option Cmp) (o : Option Cmp) (q : I32) (hi : (i.or f).isSome) (rest out : Bytes) :
    ((Client.recv (compact fuel) S L mem msd fuel m).run pipeServer ⟨f, i, o, q⟩ (negativeName ++ rest, out)).1 = .panic := by
  obtain ⟨n, rfl⟩ := Nat.exists_eq_add_of_le' hf
  cases i with
  | some i => kernel_rfl
  | none => cases f with
    | some f => kernel_rfl
    | none => cases hi

end Thrift
