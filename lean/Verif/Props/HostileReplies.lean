import Verif.Lemmas.Replies
import Verif.Props.Hostile
import Verif.Props.Termination
/-!
# Replies from hostile servers, and hostile bytes over the compact protocol
-/

namespace Thrift

/-- Neither `panic` nor `stuck`. -/
theorem returns_of {x : Res (α × π) × τ} (hp : x.1 ≠ .panic) (hs : x.1 ≠ .stuck) : ∃ a s t, x = (.ok (a, s), t) := by
  obtain ⟨⟨a, s⟩ | _ | _, t⟩ := x
  · exact ⟨a, s, t, rfl⟩
  · exact absurd rfl hp
  · exact absurd rfl hs

/-! ## C146 -/

/-- C146: whatever a server answers, a client over the binary protocol comes back
with a result or an error. -/
def C146_statement : Prop :=
  ∀ (S : Schema) (L : FloatLib) (mem : List Nat → Nat) (msd : Int) (m : Method), S.Ok →
    ∀ (c : Client Bin) (inp out : Bytes), (c.input.or c.factory).isSome → ∃ N, ∀ fuel, N ≤ fuel → ∃ r c' t,
      (Client.recv binary S L mem msd fuel m).run pipeServer c (inp, out) = (.ok (r, c'), t)

/-- What is missing: results (and exceptions) with `binary` or containers in them.
For all other methods a client returns from waiting, whatever comes in. -/
theorem C146_partial {T : Transport σ} {inn out buf : σ → Bytes} (E : Endpoint T inn out buf) {S : Schema} (L : FloatLib)
    (mem : List Nat → Nat) (msd : Int) (m : Method) (hr : S.Direct m.result) (c : Client Bin) (hc : (c.input.or c.factory).isSome) (t : σ) :
    ∃ N, ∀ fuel, N ≤ fuel → ∃ r c' t', (Client.recv binary S L mem msd fuel m).run T c t = (.ok (r, c'), t') := by
  refine ⟨(inn t).length + 3, fun fuel hf => ?_⟩
  obtain ⟨t', h, -⟩ := E.faithful.simulateP (Client.recv binary S L mem msd fuel m) c t
  have h1 := (tri_recv binary_calmReads L mem msd fuel m hr c (inn t) (out t ++ buf t) hc).1
  rw [h]
  refine returns_of h1 ?_
  rcases wp_recv (binary_digests ((inn t).length + 1)) S L mem msd fuel m c (inn t) (by omega) (by omega) (out t ++ buf t) with
    ⟨a, s', i', h2, -⟩ | ⟨i', h2, -⟩ <;> simp only [h2] <;> exact (nomatch ·)

/-- The whole call, for arguments of the declared types. -/
theorem C146_call_partial {T : Transport σ} {inn out buf : σ → Bytes} (E : Endpoint T inn out buf) {S : Schema} (L : FloatLib)
    (mem : List Nat → Nat) (msd : Int) (hK : ∀ k, ∀ m ∈ (S.structs k).members, m.ty.MapKeyFree) (m : Method) (hr : S.Direct m.result)
    {args : Attrs} (ht : FieldsTyped S (S.structs m.args) args) (c : Client Bin) (ho : c.output.isSome) (hf : c.factory.isSome) (t : σ) :
    ∃ N, ∀ fuel, N ≤ fuel → ∃ r c' t', (Client.call binary S L mem msd fuel m args).run T c t = (.ok (r, c'), t') := by
  obtain ⟨N, hN⟩ := C127_binary E S L mem msd m args c t
  refine ⟨N, fun fuel h => returns_of ?_ (hN fuel h)⟩
  obtain ⟨t', h, -⟩ := E.faithful.simulateP (Client.call binary S L mem msd fuel m args) c t
  rw [h]
  exact (tri_call binary_calmWrites binary_calmReads L mem msd fuel hK m hr ht c (inn t) (out t ++ buf t) ⟨ho, hf⟩).1

/-- `binary` or a container in the result of a method, or in one of its exceptions,
at any depth: there is a reply on which the client panics. -/
theorem C146_attack {S : Schema} (hS : S.Ok) (m : Method) (hn : m.name.length < 2 ^ 31) (hd : ¬ S.Direct m.result) (L : FloatLib)
    (mem : List Nat → Nat) (msd : Int) (q : I32) :
    ∃ inp, ∀ (f o : Option Bin) (i : Bin), i.checkReadLength = false → ∃ N, ∀ fuel, N ≤ fuel → ∀ out, ∃ t,
      (Client.recv binary S L mem msd fuel m).run pipeServer ⟨f, some i, o, q⟩ (inp, out) = (.panic, t) := by
  obtain ⟨bs, hb⟩ := exists_poison S m.result hd
  exact ⟨BinarySpec.message true m.name REPLY q ++ bs, fun f o i hi => recv_dies hS m hn hb L mem msd f i o q hi⟩

/-- Both together: the methods with results that no reply can make panic are
exactly those without `binary` and containers in them. -/
theorem C146_exact_partial {S : Schema} (hS : S.Ok) (m : Method) (hn : m.name.length < 2 ^ 31) (L : FloatLib)
    (mem : List Nat → Nat) (msd : Int) (f o : Option Bin) (i : Bin) (q : I32) (hi : i.checkReadLength = false) :
    (∀ inp out, ∃ N, ∀ fuel, N ≤ fuel → ∃ r c' t,
      (Client.recv binary S L mem msd fuel m).run pipeServer ⟨f, some i, o, q⟩ (inp, out) = (.ok (r, c'), t)) ↔ S.Direct m.result := by
  refine ⟨fun h => ?_, fun hd inp out => C146_partial pipe_server L mem msd m hd ⟨f, some i, o, q⟩ rfl (inp, out)⟩
  apply Classical.byContradiction
  intro hd
  obtain ⟨inp, ha⟩ := C146_attack hS m hn hd L mem msd q
  obtain ⟨N, ha⟩ := ha f o i hi
  obtain ⟨M, h⟩ := h inp []
  obtain ⟨t, ha⟩ := ha (max N M) (Nat.le_max_left ..) []
  obtain ⟨r, s', t', h⟩ := h (max N M) (Nat.le_max_right ..)
  rw [h] at ha
  simp at ha

/-- A method that returns a list. -/
def fetchMethod : Method := ⟨ascii "get", 1, 0, false⟩

/-- C146 does not hold. -/
theorem C146_violated : ¬ C146_statement := by
  intro h
  refine put_not_direct ((C146_exact_partial listSchema_ok fetchMethod (by decide) noFloats (fun _ => 0) 64 none none Bin.default 7 rfl).1
    fun inp out => ?_)
  exact h listSchema noFloats (fun _ => 0) 64 fetchMethod listSchema_ok _ inp out rfl

theorem sum_result_direct : sumSchema.Direct addMethod.result := by
  refine ⟨fun j => j = addMethod.result, rfl, ?_⟩
  rintro j rfl m hm
  rw [List.mem_singleton.1 hm]
  trivial

theorem sum_args_typed : FieldsTyped sumSchema (sumSchema.structs addMethod.args) [(1, .int32 3)] := by
  intro x hx _
  rw [List.mem_singleton.1 hx]
  exact Typed.i32 _

/-- The hypotheses are met. -/
example := C146_partial pipe_server noFloats (fun _ => 0) 64 addMethod sum_result_direct (Client.ofFactory Bin.default) rfl
example := C146_call_partial pipe_server noFloats (fun _ => 0) 64 sum_typed.keys addMethod sum_result_direct sum_args_typed
  (Client.ofFactory Bin.default) rfl rfl
example := C146_attack listSchema_ok fetchMethod (by decide) put_not_direct noFloats (fun _ => 0) 64

/-! ## C128 -/

/-- What is missing: input with long varints in it (four bytes in a row from 128 on,
as in `negativeName`), arguments with containers and results with `binary`.  On any
other input, and for all other services, `Process` over the compact protocol
returns. -/
theorem C128_partial {T : Transport σ} {inn out buf : σ → Bytes} (E : Endpoint T inn out buf) {S : Schema} {sv : Service η}
    (hv : sv.WellTyped S) (ha : ∀ m ∈ sv.methods, S.Flat m.args) (hr : ∀ m ∈ sv.methods, S.Bare m.result) (L : FloatLib)
    (mem : List Nat → Nat) (msd : Int) (s : Server Cmp Cmp η) (t : σ) (hi : NoLong (inn t)) :
    ∃ N, ∀ fuel, N ≤ fuel → ∃ r s' t', (process (compact fuel) (compact fuel) S L mem msd fuel sv).run T s t = (.ok (r, s'), t') := by
  obtain ⟨N, hN⟩ := C126_compact E S sv L mem msd s t
  refine ⟨N, fun fuel h => returns_of ?_ (hN fuel h)⟩
  obtain ⟨t', h, -⟩ := E.faithful.simulateP (process (compact fuel) (compact fuel) S L mem msd fuel sv) s t
  rw [h]
  exact (tr_process L mem msd fuel hv ha hr s (inn t) (out t ++ buf t) hi).1

/-- The same for clients. -/
theorem C128_client_partial {T : Transport σ} {inn out buf : σ → Bytes} (E : Endpoint T inn out buf) {S : Schema}
    (hK : ∀ k, ∀ m ∈ (S.structs k).members, m.ty.MapKeyFree) (m : Method) (ha : S.Bare m.args) (hr : S.Flat m.result) {args : Attrs}
    (ht : FieldsTyped S (S.structs m.args) args) (L : FloatLib) (mem : List Nat → Nat) (msd : Int) (c : Client Cmp)
    (ho : c.output.isSome) (hf : c.factory.isSome) (t : σ) (hi : NoLong (inn t)) :
    ∃ N, ∀ fuel, N ≤ fuel → ∃ r c' t', (Client.call (compact fuel) S L mem msd fuel m args).run T c t = (.ok (r, c'), t') := by
  obtain ⟨N, hN⟩ := C127_compact E S L mem msd m args c t
  refine ⟨N, fun fuel h => returns_of ?_ (hN fuel h)⟩
  obtain ⟨t', h, -⟩ := E.faithful.simulateP (Client.call (compact fuel) S L mem msd fuel m args) c t
  rw [h]
  exact (tr_call L mem msd fuel hK m ha hr ht c (inn t) (out t ++ buf t) ⟨ho, hf, hi⟩).1

/-- Objects without `binary` in them are written over the compact protocol without a
panic, in whatever way the transport fails. -/
theorem C128_write_partial {T : Transport σ} (hT : T.Calm) {S : Schema} (hK : ∀ k, ∀ m ∈ (S.structs k).members, m.ty.MapKeyFree)
    {k : Nat} (hk : S.Bare k) {attrs : Attrs} (ht : FieldsTyped S (S.structs k) attrs) (f fuel : Nat) (s : Cmp) (t : σ) :
    ((genWrite (compact f) S fuel (S.structs k) attrs).run T s t).1 ≠ .panic :=
  ((g_write (h := 0) hK hk ht fuel s (Nat.zero_le _)).run hT t).1

theorem sum_flat : ∀ m ∈ sumService.methods, sumSchema.Flat m.args := by
  intro m hm
  refine ⟨fun j => j = 0, ?_, ?_⟩
  · simp only [sumService, List.mem_cons, List.not_mem_nil, or_false] at hm
    rcases hm with rfl | rfl <;> rfl
  · rintro j rfl m hm
    rw [List.mem_singleton.1 hm]
    trivial

theorem sum_bare (k : Nat) : sumSchema.Bare k := by
  refine ⟨fun _ => True, trivial, fun j _ m hm => ?_⟩
  simp only [sumSchema] at hm
  split at hm
  · rw [List.mem_singleton.1 hm]; trivial
  · split at hm
    · rw [List.mem_singleton.1 hm]; trivial
    · cases hm

theorem sum_result_flat : sumSchema.Flat addMethod.result := by
  refine ⟨fun j => j = addMethod.result, rfl, ?_⟩
  rintro j rfl m hm
  rw [List.mem_singleton.1 hm]
  trivial

/-- Input with fewer than four bytes from 128 on. -/
theorem NoLong.few {inp : Bytes} (h : inp.countP (fun b => decide (128 ≤ b.toNat)) < 4) : NoLong inp := by
  rintro pre run post rfl hr
  rw [List.countP_append, List.countP_append] at h
  have : run.countP (fun b => decide (128 ≤ b.toNat)) = run.length := List.countP_eq_length.mpr fun b hb => decide_eq_true (hr b hb)
  omega

/-- The hypotheses are met: by empty input, and by a request. -/
example := C128_partial pipe_server sum_typed sum_flat (fun m _ => sum_bare m.result) noFloats (fun _ => 0) 64 ⟨Cmp.new, Cmp.new, 0⟩
  ([], []) NoLong.nil
example := C128_partial pipe_server sum_typed sum_flat (fun m _ => sum_bare m.result) noFloats (fun _ => 0) 64 ⟨Cmp.new, Cmp.new, 0⟩
  ([0x82, 0x21, 1, 3, 97, 100, 100, 0x15, 6, 0], []) (NoLong.few (by decide))
example := C128_client_partial pipe_server sum_typed.keys addMethod (sum_bare _) sum_result_flat sum_args_typed noFloats (fun _ => 0) 64
  (Client.ofFactory Cmp.new) rfl rfl ([], []) NoLong.nil
example := C128_write_partial pipe_calm sum_typed.keys (sum_bare _) sum_args_typed

/-- The input of `C128_attack` is not of that kind. -/
example : ¬ NoLong negativeName := fun h =>
  absurd (h [0x82, 0x21, 0] [0xff, 0xff, 0xff, 0xff] [0x0f] rfl (by decide)) (by decide)

end Thrift
