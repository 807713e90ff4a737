import Verif.Lemmas.Attack
import Verif.Props.Service
/-!
# Requests from hostile clients
-/

namespace Thrift

/-- C124: whatever bytes arrive, a processor over the binary protocol returns. -/
def C124_statement : Prop :=
  ∀ (η : Type) (S : Schema) (sv : Service η) (L : FloatLib) (mem : List Nat → Nat) (msd : Int), S.Ok → sv.WellTyped S →
    ∀ (s : Server Bin Bin η) (inp out : Bytes), ∃ N, ∀ fuel, N ≤ fuel → ∃ r s' t,
      (process binary binary S L mem msd fuel sv).run pipeServer s (inp, out) = (.ok (r, s'), t)

/-- What is missing: arguments with `binary` or containers in them.  For all other
services `Process` returns on every input, over every connection. -/
theorem C124_partial {T : Transport σ} {inn out buf : σ → Bytes} (E : Endpoint T inn out buf) {S : Schema} {sv : Service η}
    (hv : sv.WellTyped S) (hd : ∀ m ∈ sv.methods, S.Direct m.args) (L : FloatLib) (mem : List Nat → Nat) (msd : Int)
    (s : Server Bin Bin η) (t : σ) :
    ∃ N, ∀ fuel, N ≤ fuel → ∃ r s' t', (process binary binary S L mem msd fuel sv).run T s t = (.ok (r, s'), t') := by
  obtain ⟨N, hN⟩ := process_ends binary_calmWrites hv hd L mem msd s (inn t) (out t ++ buf t)
  refine ⟨N, fun fuel hf => ?_⟩
  obtain ⟨r, s', t', h⟩ := hN fuel hf
  obtain ⟨t'', h1, -⟩ := E.faithful.simulateP (process binary binary S L mem msd fuel sv) s t
  exact ⟨r, s', t'', by rw [h1]; simp only [h]⟩

/-- The same with connections that fail at any time and in any way: `Process` does
not panic. -/
theorem C124_panic_partial {T : Transport σ} (hT : T.Calm) {S : Schema} {sv : Service η} (hv : sv.WellTyped S)
    (hd : ∀ m ∈ sv.methods, S.Direct m.args) (L : FloatLib) (mem : List Nat → Nat) (msd : Int) (fuel : Nat)
    (s : Server Bin Bin η) (t : σ) : ((process binary binary S L mem msd fuel sv).run T s t).1 ≠ .panic :=
  (calm_process binary_calmReads binary_calmWrites hv hd L mem msd fuel s).run hT t

/-- `binary` or a container in the arguments of a method, at any depth, is enough:
there is a request that makes the processor panic, in each state without a read
limit. -/
theorem C124_attack {S : Schema} (hS : S.Ok) {sv : Service η} {m : Method} (hf : sv.find m.name = some m)
    (hn : m.name.length < 2 ^ 31) (hd : ¬ S.Direct m.args) (L : FloatLib) (mem : List Nat → Nat) (msd : Int) :
    ∃ inp, ∀ s : Server Bin Bin η, s.iprot.checkReadLength = false → ∃ N, ∀ fuel, N ≤ fuel → ∀ out, ∃ t,
      (process binary binary S L mem msd fuel sv).run pipeServer s (inp, out) = (.panic, t) := by
  obtain ⟨bs, hb⟩ := exists_poison S m.args hd
  refine ⟨BinarySpec.message true m.name CALL 0 ++ bs, fun s hs => ?_⟩
  obtain ⟨i, o, h⟩ := s
  exact process_dies hS hf hn hb L mem msd i hs o h 0

/-- Both together: the processor returns on every input exactly if there are
neither `binary` nor containers in the arguments of its methods. -/
theorem C124_exact_partial {S : Schema} (hS : S.Ok) {sv : Service η} (hv : sv.WellTyped S)
    (hf : ∀ m ∈ sv.methods, sv.find m.name = some m ∧ m.name.length < 2 ^ 31) (L : FloatLib) (mem : List Nat → Nat) (msd : Int)
    (s : Server Bin Bin η) (hs : s.iprot.checkReadLength = false) :
    (∀ inp out, ∃ N, ∀ fuel, N ≤ fuel → ∃ r s' t,
      (process binary binary S L mem msd fuel sv).run pipeServer s (inp, out) = (.ok (r, s'), t)) ↔
    ∀ m ∈ sv.methods, S.Direct m.args := by
  refine ⟨fun h m hm => ?_, fun hd inp out => C124_partial pipe_server hv hd L mem msd s (inp, out)⟩
  apply Classical.byContradiction
  intro hd
  obtain ⟨inp, ha⟩ := C124_attack hS (hf m hm).1 (hf m hm).2 hd L mem msd
  obtain ⟨N, ha⟩ := ha s hs
  obtain ⟨M, h⟩ := h inp []
  obtain ⟨t, ha⟩ := ha (max N M) (Nat.le_max_left ..) []
  obtain ⟨r, s', t', h⟩ := h (max N M) (Nat.le_max_right ..)
  rw [h] at ha
  simp at ha

/-- A method that takes a list. -/
def listSchema : Schema where
  structs k := if k = 0 then ⟨ascii "args", [⟨ascii "x", 1, .list .i32, false, none, 0, true⟩]⟩ else ⟨ascii "none", []⟩
  enumText _ _ := ascii "X"

theorem listSchema_ok : listSchema.Ok := by
  intro k
  simp only [listSchema]
  split
  · exact ⟨by simp, by simp, by simp, by simp; decide⟩
  · exact ⟨by simp, by simp, by simp, by simp⟩

def putMethod : Method := ⟨ascii "put", 0, 1, false⟩
def putService : Service Unit := ⟨[putMethod], fun _ h _ => (([], none), h)⟩

theorem put_typed : putService.WellTyped listSchema where
  keys k m hm := by
    simp only [listSchema] at hm
    split at hm
    · rw [List.mem_singleton.1 hm]; trivial
    · cases hm
  results m hm h as r h' _ x hx := by
    rw [List.mem_singleton.1 hm] at hx
    cases hx
  oneway m hm h := by rw [List.mem_singleton.1 hm] at h; cases h

theorem put_not_direct : ¬ listSchema.Direct 0 := fun ⟨_, h0, hR⟩ => hR 0 h0 _ (List.mem_singleton.2 rfl)

/-- C124 does not hold. -/
theorem C124_violated : ¬ C124_statement := by
  intro h
  have h := (C124_exact_partial listSchema_ok put_typed
    (fun m hm => by rw [List.mem_singleton.1 hm]; exact ⟨rfl, by decide⟩) noFloats (fun _ => 0) 64 ⟨Bin.default, Bin.default, ()⟩ rfl).1
    fun inp out => h Unit listSchema putService noFloats (fun _ => 0) 64 listSchema_ok put_typed _ inp out
  exact put_not_direct (h putMethod (List.mem_singleton.2 rfl))

/-- The request in the case above. -/
example (N : Nat) (out : Bytes) :
    ((process binary binary listSchema noFloats (fun _ => 0) 64 (N + 10) putService).run pipeServer ⟨Bin.default, Bin.default, ()⟩
      (BinarySpec.message true (ascii "put") CALL 0 ++ [15, 0, 1, 5, 0, 0, 0, 1, 0, 0, 0, 0], out)).1 = .panic := by kernel_rfl

theorem sum_typed : sumService.WellTyped sumSchema where
  keys k m hm := by
    simp only [sumSchema] at hm
    split at hm
    · rw [List.mem_singleton.1 hm]; trivial
    · split at hm
      · rw [List.mem_singleton.1 hm]; trivial
      · cases hm
  results m hm h as r h' hh x hx _ := by
    simp only [sumService, List.mem_cons, List.not_mem_nil, or_false] at hm
    rcases hm with rfl | rfl
    · rw [List.mem_singleton.1 hx]
      simp only [sumService, addMethod, Bool.false_eq_true, if_false, Prod.mk.injEq, and_true] at hh
      rw [← hh.1]
      exact Typed.i32 _
    · cases hx
  oneway m hm h := by
    simp only [sumService, List.mem_cons, List.not_mem_nil, or_false] at hm
    rcases hm with rfl | rfl
    · cases h
    · rfl

theorem sum_direct : ∀ m ∈ sumService.methods, sumSchema.Direct m.args := by
  intro m hm
  refine ⟨fun j => j = 0, ?_, ?_⟩
  · simp only [sumService, List.mem_cons, List.not_mem_nil, or_false] at hm
    rcases hm with rfl | rfl <;> rfl
  · rintro j rfl m hm
    rw [List.mem_singleton.1 hm]
    trivial

/-- The hypotheses of `C124_partial` are met. -/
example := C124_partial pipe_server sum_typed sum_direct noFloats (fun _ => 0) 64 ⟨Bin.default, Bin.default, 0⟩

theorem pipe_calm : pipeServer.Calm where
  read n s := by simp only [pipeServer]; split <;> simp
  write bs s := by simp [pipeServer]
  flush s := by simp [pipeServer]

/-- The hypotheses of `C124_panic_partial` are met. -/
example := C124_panic_partial pipe_calm sum_typed sum_direct noFloats (fun _ => 0) 64

/-- The hypotheses of `C124_attack` and `C124_exact_partial` are met. -/
example := C124_attack (sv := putService) listSchema_ok (m := putMethod) rfl (by decide) put_not_direct noFloats (fun _ => 0) 64
example := C124_exact_partial sumSchema_ok sum_typed (fun m hm => by
    simp only [sumService, List.mem_cons, List.not_mem_nil, or_false] at hm
    rcases hm with rfl | rfl <;> exact ⟨rfl, by decide⟩) noFloats (fun _ => 0) 64 ⟨Bin.default, Bin.default, 0⟩ rfl

end Thrift
