import Verif.Lemmas.JsonBroken
import Verif.Lemmas.JsonPlain
import Verif.Lemmas.KernelRfl
import Verif.Spec.Failures
/-!
# C102: reading JSON from a broken connection
-/

namespace Thrift

variable {τ : Type}

/-- C102.  Where every `Read` of the transport fails and nothing is buffered, every
read call of the JSON protocols that has something to read returns an error. -/
def C102_statement : Prop :=
  ∀ (τ : Type) (E : JsonEnv τ) (broken : τ → Prop) (s : Json τ) (call : FetchCall), FailsFrom E.T broken → 2 ≤ E.fuel → broken s.t →
    s.buf = [] → s.parse ≠ [] → call ≠ .fieldEnd → ∀ (σ : Type) (T : Transport σ) (u : σ),
    (∃ e s', ((simpleJson E).fetch call).run T s u = (.ok (some e, s'), u)) ∧ ∃ e s', ((tjson E).fetch call).run T s u = (.ok (some e, s'), u)

/-- A connection that is broken from the start. -/
def brokenEnv : JsonEnv Unit where
  T := ⟨fun _ s => (.ok ([], some ⟨.other, 0, ascii "connection reset"⟩), s), fun _ s => (.ok (0, none), s), fun s => (.ok none, s)⟩
  L := JsonPlain.lib
  fuel := 9
  stale := fun _ => []

theorem brokenEnv_fails : FailsFrom brokenEnv.T (fun _ => True) := fun _ _ _ _ => ⟨_, _, rfl, trivial⟩

/-- C102 does not hold: `ReadBool` returns false without an error. -/
theorem C102_violated : ¬ C102_statement := by
  intro h
  obtain ⟨⟨e, s', h⟩, _⟩ := h Unit brokenEnv (fun _ => True) (Json.newSimple ()) .bool brokenEnv_fails (by decide) trivial rfl (by decide)
    nofun Bytes memory []
  have h2 : ((simpleJson brokenEnv).fetch .bool).run memory (Json.newSimple ()) [] = (.ok (none, Json.newSimple ()), []) := by kernel_rfl
  rw [h] at h2
  exact nomatch h2

/-- It does not hold for `ReadFieldBegin`, which takes the failure for the end of the
struct. -/
theorem C102_field_violated : ¬ C102_statement := by
  intro h
  obtain ⟨⟨e, s', h⟩, _⟩ := h Unit brokenEnv (fun _ => True) (Json.newSimple ()) .fieldBegin brokenEnv_fails (by decide) trivial rfl (by decide)
    nofun Bytes memory []
  have h2 : ((simpleJson brokenEnv).fetch .fieldBegin).run memory (Json.newSimple ()) [] = (.ok (none, Json.newSimple ()), []) := by kernel_rfl
  rw [h] at h2
  exact nomatch h2

theorem fetch_ret {m : P (Json τ) GoErr} {s : Json τ} (h : ∃ e s', m s = .ret (some e, s')) (T : Transport σ) (u : σ) :
    ∃ e s', m.run T s u = (.ok (some e, s'), u) := by
  obtain ⟨e, s', h⟩ := h
  exact ⟨e, s', by simp only [P.run, h, Prog.run]⟩

theorem second_ret {m : P (Json τ) (α × GoErr)} {s : Json τ} (h : ∃ v e s', m s = .ret ((v, some e), s')) :
    ∃ e s', (do return (← m).2 : P (Json τ) GoErr) s = .ret (some e, s') := by
  obtain ⟨v, e, s', h⟩ := h
  exact ⟨e, s', by rw [JsonR.bind_apply, h, JsonR.ret_bind]; rfl⟩

theorem after_listBegin {E : JsonEnv τ} {s : Json τ} (h : ∃ e s', JsonProtocol.parseListBegin E s = .ret ((false, some e), s')) (a : α)
    (k : P (Json τ) (α × GoErr)) : ∃ v e s', (do
      let (isNull, e) ← JsonProtocol.parseListBegin E
      if isNull ∨ e.isSome then return (a, e)
      k : P (Json τ) (α × GoErr)) s = .ret ((v, some e), s') := by
  obtain ⟨e, s', h⟩ := h
  exact ⟨a, e, s', by rw [JsonR.bind_apply, h, JsonR.ret_bind]; rfl⟩

theorem map_ret {m : P (Json τ) (α × GoErr)} {s : Json τ} (h : ∃ v e s', m s = .ret ((v, some e), s')) (f : α → β) :
    ∃ v e s', (do let (a, e) ← m; return (f a, e) : P (Json τ) (β × GoErr)) s = .ret ((v, some e), s') := by
  obtain ⟨v, e, s', h⟩ := h
  exact ⟨f v, e, s', by rw [JsonR.bind_apply, h, JsonR.ret_bind]; rfl⟩

/-- What holds: all calls but `ReadBool` and `ReadFieldBegin` report the failure. -/
theorem C102_partial (E : JsonEnv τ) (broken : τ → Prop) (s : Json τ) (call : FetchCall) (hB : FailsFrom E.T broken) (hf : 2 ≤ E.fuel)
    (ht : broken s.t) (hb : s.buf = []) (hp : s.parse ≠ []) (hc : call ∉ [.fieldBegin, .fieldEnd, .bool]) (T : Transport σ) (u : σ) :
    (∃ e s', ((simpleJson E).fetch call).run T s u = (.ok (some e, s'), u)) ∧
      ∃ e s', ((tjson E).fetch call).run T s u = (.ok (some e, s'), u) := by
  obtain ⟨pc, dc, x, er, t⟩ := s
  simp only at ht hb hp
  subst hb
  obtain ⟨c, pc, rfl⟩ : ∃ c r, pc = c :: r := by
    cases pc with
    | nil => exact absurd rfl hp
    | cons c r => exact ⟨c, r, rfl⟩
  have hf1 : 0 < E.fuel := by omega
  have lb := JsonR.broken_listBegin (x := []) hB hf1 c pc dc (by simp) er ht
  have le := JsonR.broken_listEnd hB hf c pc dc er ht
  have oe := JsonR.broken_objectEnd hB hf c pc dc er ht
  have os : ∃ v e s', JsonProtocol.parseObjectStart E ⟨c :: pc, dc, [], er, t⟩ = .ret ((v, some e), s') := by
    obtain ⟨e, s', h⟩ := JsonR.broken_objectStart hB hf1 c pc dc er ht
    exact ⟨_, e, s', h⟩
  have nu := JsonR.broken_number hB hf1 c pc dc er ht
  have i64 := map_ret nu (·.i)
  have qu (body) := JsonR.broken_quoted hB hf1 body c pc dc er ht
  cases call with
  | fieldBegin | fieldEnd | bool => exact absurd hc (by decide)
  | messageEnd | mapEnd | listEnd | setEnd => exact ⟨fetch_ret le T u, fetch_ret le T u⟩
  | structEnd => exact ⟨fetch_ret oe T u, fetch_ret oe T u⟩
  | structBegin => exact ⟨fetch_ret (second_ret (map_ret os fun _ => ([] : Bytes))) T u, fetch_ret (second_ret (map_ret os fun _ => ([] : Bytes))) T u⟩
  | messageBegin | mapBegin | listBegin | setBegin =>
    exact ⟨fetch_ret (second_ret (after_listBegin lb _ _)) T u, fetch_ret (second_ret (after_listBegin lb _ _)) T u⟩
  | i64 => exact ⟨fetch_ret (second_ret i64) T u, fetch_ret (second_ret i64) T u⟩
  | byte | i16 | i32 => exact ⟨fetch_ret (second_ret (map_ret i64 _)) T u, fetch_ret (second_ret (map_ret i64 _)) T u⟩
  | double => exact ⟨fetch_ret (second_ret (map_ret nu _)) T u, fetch_ret (second_ret (map_ret nu _)) T u⟩
  | string | binary => exact ⟨fetch_ret (second_ret (qu _)) T u, fetch_ret (second_ret (qu _)) T u⟩

example := C102_partial brokenEnv (fun _ => True) (Json.newSimple ()) .i32 brokenEnv_fails (by decide) trivial rfl (by decide) (by decide)
  memory []

/-- A list, a set, a map or a message is not begun when the connection breaks before
four bytes have come. -/
theorem C102_begin (E : JsonEnv τ) (broken : τ → Prop) (s : Json τ) (call : FetchCall) (hB : FailsFrom E.T broken) (hf : 1 ≤ E.fuel)
    (ht : broken s.t) (hb : s.buf.length < 4) (hp : s.parse ≠ []) (hc : call ∈ [.messageBegin, .mapBegin, .listBegin, .setBegin])
    (T : Transport σ) (u : σ) :
    (∃ e s', ((simpleJson E).fetch call).run T s u = (.ok (some e, s'), u)) ∧
      ∃ e s', ((tjson E).fetch call).run T s u = (.ok (some e, s'), u) := by
  obtain ⟨pc, dc, x, er, t⟩ := s
  simp only at ht hb hp
  obtain ⟨c, pc, rfl⟩ : ∃ c r, pc = c :: r := by
    cases pc with
    | nil => exact absurd rfl hp
    | cons c r => exact ⟨c, r, rfl⟩
  have lb := JsonR.broken_listBegin (x := x) hB hf c pc dc hb er ht
  simp only [List.mem_cons, List.not_mem_nil, or_false] at hc
  rcases hc with rfl | rfl | rfl | rfl <;>
    exact ⟨fetch_ret (second_ret (after_listBegin lb _ _)) T u, fetch_ret (second_ret (after_listBegin lb _ _)) T u⟩

example := C102_begin brokenEnv (fun _ => True) { Json.newSimple () with buf := ascii "[1" } .listBegin brokenEnv_fails (by decide) trivial
  (by decide) (by decide) (by decide) memory []

end Thrift
