import Verif.Props.Service
import Verif.Props.Skip
/-!
# C219: requests bear sequence ids of their own
-/

namespace Thrift

/-- The bytes are the requests of these calls, with these sequence ids. -/
inductive RequestsOf (S : Schema) (strict : Bool) : List (Method × Attrs) → List I32 → Bytes → Prop
  | nil : RequestsOf S strict [] [] []
  | cons (m : Method) (a : Attrs) (q : I32) (fs : Fields) {cs : List (Method × Attrs)} {qs : List I32} {bs : Bytes} :
      fs.WF → fs.Conforms S (S.structs m.args) → RequestsOf S strict cs qs bs →
      RequestsOf S strict ((m, a) :: cs) (q :: qs) (BinarySpec.message strict m.name CALL q ++ BinarySpec.encode (.struct fs) ++ bs)

/-- Requests sent one after the other. -/
def sendEach (S : Schema) (fuel : Nat) : List (Method × Attrs) → P (Client Bin) Unit
  | [] => Pure.pure ()
  | c :: cs => do
    let _ ← Client.send binary S fuel c.1 c.2
    sendEach S fuel cs

/-- C219 for some numbers of requests: the requests that a client sends over a transport
that works bear different sequence ids, so that answers can be told apart. -/
def C219_for (which : Nat → Prop) : Prop :=
  ∀ {σ : Type} {T : Transport σ} {inn out buf : σ → Bytes} {S : Schema} (f : Bin) (n : I32) (cs : List (Method × Attrs)),
    Endpoint T inn out buf → S.Ok → (∀ c ∈ cs, c.1.name.length < 2 ^ 31 ∧ Fine S (.struct c.1.args) ((S.structs c.1.args).object 0 c.2)) →
    which cs.length → ∃ N, ∀ fuel, N ≤ fuel → ∀ t, ∃ qs bs c' t',
      (sendEach S fuel cs).run T { Client.ofFactory f with seqId := n } t = (.ok ((), c'), t') ∧
      out t' ++ buf t' = out t ++ buf t ++ bs ∧ RequestsOf S f.strictWrite cs qs bs ∧ qs.Nodup

def C219_statement : Prop := C219_for fun _ => True

/-- The numbers after `n`. -/
def idsAfter (n : I32) : Nat → List I32
  | 0 => []
  | k + 1 => (n + 1) :: idsAfter (n + 1) k

theorem mem_idsAfter : ∀ (k : Nat) (n q : I32), q ∈ idsAfter n k ↔ ∃ j, 0 < j ∧ j ≤ k ∧ q = n + BitVec.ofNat 32 j
  | 0, n, q => by
    constructor
    · intro h; cases h
    · rintro ⟨j, h1, h2, -⟩; omega
  | k + 1, n, q => by
    rw [idsAfter, List.mem_cons, mem_idsAfter k]
    constructor
    · rintro (rfl | ⟨j, h1, h2, rfl⟩)
      · exact ⟨1, by omega, by omega, rfl⟩
      · refine ⟨j + 1, by omega, by omega, ?_⟩
        rw [BitVec.ofNat_add, BitVec.add_assoc]
        congr 1
        exact BitVec.add_comm _ _
    · rintro ⟨j, h1, h2, rfl⟩
      by_cases h : j = 1
      · subst h; exact .inl rfl
      · obtain ⟨j, rfl⟩ : ∃ i, j = i + 1 := ⟨j - 1, by omega⟩
        refine .inr ⟨j, by omega, by omega, ?_⟩
        rw [BitVec.ofNat_add, BitVec.add_assoc]
        congr 1
        exact BitVec.add_comm _ _

theorem idsAfter_nodup : ∀ (k : Nat) (n : I32), (idsAfter n k).Nodup ↔ k ≤ 2 ^ 32
  | 0, _ => ⟨fun _ => by omega, fun _ => List.nodup_nil⟩
  | k + 1, n => by
    rw [idsAfter, List.nodup_cons, idsAfter_nodup k, mem_idsAfter]
    constructor
    · rintro ⟨h1, h2⟩
      by_cases h : k = 2 ^ 32
      · exact absurd ⟨2 ^ 32, by omega, by omega, by rw [show BitVec.ofNat 32 (2 ^ 32) = 0 from by decide]; exact (BitVec.add_zero _).symm⟩ h1
      · omega
    · refine fun h => ⟨?_, by omega⟩
      rintro ⟨j, h1, h2, h3⟩
      generalize n + 1 = x at h3
      have h4 := congrArg BitVec.toNat h3
      rw [BitVec.toNat_add, BitVec.toNat_ofNat] at h4
      have := x.isLt
      omega

/-- What a client sends, and with which ids. -/
theorem sends_each {σ : Type} {T : Transport σ} {inn out buf : σ → Bytes} {S : Schema} (f : Bin) (E : Endpoint T inn out buf) (hS : S.Ok) :
    ∀ (cs : List (Method × Attrs)),
    (∀ c ∈ cs, c.1.name.length < 2 ^ 31 ∧ Fine S (.struct c.1.args) ((S.structs c.1.args).object 0 c.2)) →
    ∃ N, ∀ fuel, N ≤ fuel → ∀ n t, ∃ bs c' t',
      (sendEach S fuel cs).run T { Client.ofFactory f with seqId := n } t = (.ok ((), c'), t') ∧
      out t' ++ buf t' = out t ++ buf t ++ bs ∧ RequestsOf S f.strictWrite cs (idsAfter n cs.length) bs
  | [], _ => ⟨0, fun fuel _ n t => ⟨[], _, t, rfl, by simp, .nil⟩⟩
  | (m, a) :: cs, h => by
    obtain ⟨hm, ha⟩ := h _ List.mem_cons_self
    obtain ⟨fs, N, h1, h2, h3⟩ := C60_partial E hS hm ha f
    obtain ⟨M, ih⟩ := sends_each f E hS cs fun c hc => h c (List.mem_cons_of_mem _ hc)
    refine ⟨max N M, fun fuel hf n t => ?_⟩
    obtain ⟨t1, e1, -, o1, b1⟩ := h3 fuel (by omega) n t
    obtain ⟨bs, c', t', e2, o2, r2⟩ := ih fuel (by omega) (n + 1) t1
    refine ⟨_, c', t', ?_, ?_, .cons m a (n + 1) fs h1 h2 r2⟩
    · rw [sendEach, P.run_bind, e1, andThen_ok, e2]
    · rw [o2, o1, b1]; simp

/-- The ids can be read off the bytes. -/
theorem RequestsOf.unique {S : Schema} {strict : Bool} {cs : List (Method × Attrs)} {qs qs' : List I32} {bs : Bytes}
    (hn : ∀ c ∈ cs, c.1.name.length < 2 ^ 31) (h : RequestsOf S strict cs qs bs) (h' : RequestsOf S strict cs qs' bs) : qs = qs' := by
  induction h generalizing qs' with
  | nil => cases h'; rfl
  | cons m a q fs hw hc hr ih =>
    generalize hb : BinarySpec.message strict m.name CALL q ++ BinarySpec.encode (.struct fs) ++ _ = bs at h'
    cases h' with
    | cons _ _ q' fs' hw' hc' hr' =>
      have hm := hn _ List.mem_cons_self
      have k := (Bin.reads_header strict m.name CALL q hm (by decide) Bin.default rfl (.inr rfl)).memory
      have k' := (Bin.reads_header strict m.name CALL q' hm (by decide) Bin.default rfl (.inr rfl)).memory
      rw [List.append_assoc, List.append_assoc] at hb
      have e := (k _).symm.trans ((congrArg (binary.readMessageBegin.run memory Bin.default) hb).trans (k' _))
      simp only [Prod.mk.injEq, Res.ok.injEq, true_and, and_true] at e
      obtain ⟨rfl, e⟩ := e
      have s := C09_skip_exact (.struct fs) hw 0 0 Bin.default rfl (max (Val.struct fs).size (Val.struct fs').size) (by omega)
      have s' := C09_skip_exact (.struct fs') hw' 0 0 Bin.default rfl (max (Val.struct fs).size (Val.struct fs').size) (by omega)
      have e3 := (s _).symm.trans ((congrArg ((skip binary 0 _ TT.STRUCT 0).run memory Bin.default) e).trans (s' _))
      have e4 := congrArg Prod.snd e3
      simp only at e4
      subst e4
      rw [ih (fun c hc => hn c (List.mem_cons_of_mem _ hc)) hr']

/-- C219 for up to 2³² requests. -/
theorem C219_partial : C219_for (· ≤ 2 ^ 32) := by
  intro σ T inn out buf S f n cs E hS h hk
  obtain ⟨N, h1⟩ := sends_each f E hS cs h
  refine ⟨N, fun fuel hf t => ?_⟩
  obtain ⟨bs, c', t', e, o, r⟩ := h1 fuel hf n t
  exact ⟨_, bs, c', t', e, o, r, (idsAfter_nodup _ _).2 hk⟩

/-- More requests never bear different ids: whatever the requests, one id is used again. -/
theorem C219_always_violated {σ : Type} {T : Transport σ} {inn out buf : σ → Bytes} {S : Schema} (f : Bin) (n : I32) (cs : List (Method × Attrs))
    (E : Endpoint T inn out buf) (hS : S.Ok)
    (h : ∀ c ∈ cs, c.1.name.length < 2 ^ 31 ∧ Fine S (.struct c.1.args) ((S.structs c.1.args).object 0 c.2)) (hk : 2 ^ 32 < cs.length) (t : σ) :
    ∃ N, ∀ fuel, N ≤ fuel → ¬ ∃ qs bs c' t', (sendEach S fuel cs).run T { Client.ofFactory f with seqId := n } t = (.ok ((), c'), t') ∧
      out t' ++ buf t' = out t ++ buf t ++ bs ∧ RequestsOf S f.strictWrite cs qs bs ∧ qs.Nodup := by
  obtain ⟨N, h1⟩ := sends_each f E hS cs h
  refine ⟨N, fun fuel hf ⟨qs, bs, c', t', e, o, r, hd⟩ => ?_⟩
  obtain ⟨bs', c'', t'', e', o', r'⟩ := h1 fuel hf n t
  rw [e] at e'
  simp only [Prod.mk.injEq] at e'
  obtain ⟨-, rfl⟩ := e'
  rw [o] at o'
  obtain rfl := List.append_cancel_left o'
  rw [r.unique (fun c hc => (h c hc).1) r', idsAfter_nodup] at hd
  omega

theorem C219_violated : ¬ C219_statement := by
  intro h
  have hc : ∀ c ∈ List.replicate (2 ^ 32 + 1) (addMethod, [((1 : Int), Dyn.int32 5)]),
      c.1.name.length < 2 ^ 31 ∧ Fine sumSchema (.struct c.1.args) ((sumSchema.structs c.1.args).object 0 c.2) := by
    intro c hc
    rw [List.eq_of_mem_replicate hc]
    exact ⟨by decide, sum_args 5⟩
  obtain ⟨N, h1⟩ := h Bin.default 0 _ pipe_client sumSchema_ok hc trivial
  obtain ⟨M, h2⟩ := C219_always_violated Bin.default 0 _ pipe_client sumSchema_ok hc (by rw [List.length_replicate]; omega) ([], [])
  exact h2 (max N M) (by omega) (h1 (max N M) (by omega) ([], []))

/-! ## The hypotheses are met -/

example (x y : I32) (n : I32) := C219_partial (T := pipeClient) Bin.default n [(addMethod, [(1, .int32 x)]), (addMethod, [(1, .int32 y)])] pipe_client
  sumSchema_ok
  (by
    intro c hc
    simp only [List.mem_cons, List.not_mem_nil, or_false] at hc
    rcases hc with rfl | rfl
    · exact ⟨show addMethod.name.length < 2 ^ 31 by decide, sum_args x⟩
    · exact ⟨show addMethod.name.length < 2 ^ 31 by decide, sum_args y⟩)
  (show 2 ≤ 2 ^ 32 by decide)

end Thrift
