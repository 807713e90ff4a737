import Verif.Spec.Http
/-!
# The HTTP client transport: C109-C112, C114
-/

namespace Thrift

variable {ρ ν : Type}

/-! ## C109: closed clients -/

/-- C109.  After a `Close` that reports success the client is not open, and `Read`,
`Write` and `Flush` answer `NOT_OPEN`, whatever the outside does meanwhile, and
change nothing. -/
def C109_statement : Prop :=
  ∀ (ρ ν : Type) (W : Web ρ ν) (s s' : Http ρ) (n n' : ν), s.close W n = (none, s', n') →
    s'.isOpen = false ∧ ∀ x,
    (∀ k, ∃ m, SOp.runHttp W (.read k) s' x = (.got [] (some ⟨.transport, 1, m⟩), s', x)) ∧
    (∀ bs, ∃ m, SOp.runHttp W (.write bs) s' x = (.wrote 0 (some ⟨.transport, 1, m⟩), s', x)) ∧
    ∃ m, SOp.runHttp W .flush s' x = (.flushed (some ⟨.transport, 1, m⟩), s', x)

/-- A web that answers every request with an empty page of status 200. -/
def blankWeb : Web Unit Unit where
  get _ := (.ok (), ())
  post b _ := ((b.length, .ok (200, ())), ())
  readBody _ _ _ := (([], some ⟨.eof, 0, ascii "EOF"⟩), ())
  closeBody _ _ := (none, ())

/-- C109 does not hold: `Write` and `Flush` panic. -/
theorem C109_violated : ¬ C109_statement := by
  intro h
  obtain ⟨-, h⟩ := h _ _ blankWeb Http.newPost ⟨none, none⟩ () () rfl
  obtain ⟨m, h⟩ := (h ()).2.1 []
  exact nomatch h

/-- A client that has received a response stays open. -/
theorem C109_response_violated : ¬ C109_statement := by
  intro h
  obtain ⟨h, -⟩ := h _ _ blankWeb ⟨some (), some []⟩ ⟨none, some []⟩ () () rfl
  exact nomatch h

/-- What holds: after any `Close`, `Read` answers `NOT_OPEN`; a second `Close` always
succeeds, and after it the client is not open. -/
theorem C109_partial (W : Web ρ ν) (s s₁ s₂ : Http ρ) (n n₁ n₂ n₃ : ν) (e₁ e₂ : GoErr) (h₁ : s.close W n = (e₁, s₁, n₁))
    (h₂ : s₁.close W n₂ = (e₂, s₂, n₃)) :
    (∀ k x, ∃ m, SOp.runHttp W (.read k) s₁ x = (.got [] (some ⟨.transport, 1, m⟩), s₁, x)) ∧ e₂ = none ∧ n₃ = n₂ ∧ s₂.isOpen = false ∧
      ∀ k x, ∃ m, SOp.runHttp W (.read k) s₂ x = (.got [] (some ⟨.transport, 1, m⟩), s₂, x) := by
  obtain ⟨r, q⟩ := s
  cases r with
  | none =>
    simp only [Http.close, Prod.mk.injEq] at h₁
    obtain ⟨rfl, rfl, rfl⟩ := h₁
    simp only [Http.close, Prod.mk.injEq] at h₂
    obtain ⟨rfl, rfl, rfl⟩ := h₂
    exact ⟨fun k x => ⟨_, rfl⟩, rfl, rfl, rfl, fun k x => ⟨_, rfl⟩⟩
  | some r =>
    simp only [Http.close, Prod.mk.injEq] at h₁
    obtain ⟨rfl, rfl, rfl⟩ := h₁
    simp only [Http.close, Prod.mk.injEq] at h₂
    obtain ⟨rfl, rfl, rfl⟩ := h₂
    exact ⟨fun k x => ⟨_, rfl⟩, rfl, rfl, rfl, fun k x => ⟨_, rfl⟩⟩

example := C109_partial blankWeb ⟨some (), some []⟩ ⟨none, some []⟩ ⟨none, none⟩ () () () () none none rfl rfl

/-! ## C110: requests -/

/-- C110.  The requests that a POST client sends are what was written since the flush
before, one request per flush, in order. -/
def C110_statement : Prop :=
  ∀ (ρ ν : Type) (W : Web ρ ν) (n : ν) (ops : List SOp), .close ∉ ops →
    (runHttp W.recorded ops Http.newPost (n, [])).2.2.2 = requestsOf [] ops

/-- A web that answers with errors before it has taken anything of the request. -/
def downWeb : Web Unit Unit where
  get _ := (.error ⟨.other, 0, ascii "connection refused"⟩, ())
  post _ _ := ((0, .error ⟨.other, 0, ascii "connection refused"⟩), ())
  readBody _ _ _ := (([], some ⟨.eof, 0, ascii "EOF"⟩), ())
  closeBody _ _ := (none, ())

/-- C110 does not hold: after a failed flush the next request begins with the old
one. -/
theorem C110_violated : ¬ C110_statement := by
  intro h
  have := h _ _ downWeb () [.write [1], .flush, .write [2], .flush] (by decide)
  exact absurd this (by decide +kernel)

theorem flush_run (W : Web ρ ν) (r : Option ρ) (b : Bytes) (n : ν) : ∃ e r',
    SOp.runHttp W .flush ⟨r, some b⟩ n = (.flushed e, ⟨r', some (b.drop (W.post b n).1.1)⟩, (W.post b n).2) := by
  simp only [SOp.runHttp, Http.flush]
  rcases W.post b n with ⟨⟨k, e | ⟨st, x⟩⟩, n'⟩
  · exact ⟨_, _, rfl⟩
  · simp only
    by_cases h : st ≠ 200
    · rw [if_pos h]; exact ⟨_, _, rfl⟩
    · rw [if_neg h]; exact ⟨_, _, rfl⟩

theorem requests_run (W : Web ρ ν) (hW : ∀ b n, b.length ≤ (W.post b n).1.1) : ∀ (ops : List SOp) (r : Option ρ) (b : Bytes) (n : ν) (l : List Bytes),
    .close ∉ ops → (runHttp W.recorded ops ⟨r, some b⟩ (n, l)).2.2.2 = l ++ requestsOf b ops
  | [], r, b, n, l, _ => by simp [runHttp, requestsOf]
  | op :: ops, r, b, n, l, h => by
    have h' : .close ∉ ops := fun hh => h (List.mem_cons_of_mem _ hh)
    have ih := requests_run W hW ops
    cases op with
    | close => exact absurd List.mem_cons_self h
    | «open» => exact ih r b n l h'
    | read k =>
      cases r with
      | none => exact ih _ _ _ _ h'
      | some r => exact ih _ _ _ _ h'
    | write bs => exact ih r (b ++ bs) n l h'
    | flush =>
      obtain ⟨e, r', h1⟩ := flush_run W.recorded r b (n, l)
      rw [runHttp, requestsOf, h1]
      have h2 : b.drop (W.recorded.post b (n, l)).1.1 = [] := List.drop_of_length_le (hW b n)
      rw [h2]
      exact (ih r' [] (W.post b n).2 (l ++ [b]) h').trans (by simp)

/-- What holds: if every request is taken whole, the requests are as they should be. -/
theorem C110_partial (W : Web ρ ν) (hW : ∀ b n, b.length ≤ (W.post b n).1.1) (n : ν) (ops : List SOp) (h : .close ∉ ops) :
    (runHttp W.recorded ops Http.newPost (n, [])).2.2.2 = requestsOf [] ops := by
  rw [Http.newPost, requests_run W hW ops none [] n [] h, List.nil_append]

example := C110_partial blankWeb (fun _ _ => Nat.le_refl _) () [.write [1], .flush, .write [2], .read 4, .flush] (by decide)

/-- One list of requests is the other with something in front of each. -/
def Prefixed : List Bytes → List Bytes → Prop
  | [], [] => True
  | a :: as, b :: bs => a <:+ b ∧ Prefixed as bs
  | _, _ => False

theorem suffix_run (W : Web ρ ν) : ∀ (ops : List SOp) (r : Option ρ) (p b : Bytes) (n : ν) (l : List Bytes),
    .close ∉ ops → ∃ l', (runHttp W.recorded ops ⟨r, some (p ++ b)⟩ (n, l)).2.2.2 = l ++ l' ∧ Prefixed (requestsOf b ops) l'
  | [], r, p, b, n, l, _ => ⟨[], by simp [runHttp], trivial⟩
  | op :: ops, r, p, b, n, l, h => by
    have h' : .close ∉ ops := fun hh => h (List.mem_cons_of_mem _ hh)
    have ih := suffix_run W ops
    cases op with
    | close => exact absurd List.mem_cons_self h
    | «open» => exact ih r p b n l h'
    | read k =>
      cases r with
      | none => exact ih _ _ _ _ _ h'
      | some r => exact ih _ _ _ _ _ h'
    | write bs =>
      have := ih r p (b ++ bs) n l h'
      rw [← List.append_assoc] at this
      exact this
    | flush =>
      obtain ⟨e, r', h1⟩ := flush_run W.recorded r (p ++ b) (n, l)
      rw [runHttp, requestsOf, h1]
      obtain ⟨l', h2, h3⟩ := ih r' ((p ++ b).drop (W.post (p ++ b) n).1.1) [] (W.post (p ++ b) n).2 (l ++ [p ++ b]) h'
      rw [List.append_nil] at h2
      exact ⟨(p ++ b) :: l', h2.trans (by simp), List.suffix_append _ _, h3⟩

/-- Whatever happens, there is one request per flush, and it ends with what was
written since the flush before. -/
theorem C110_suffix_partial (W : Web ρ ν) (n : ν) (ops : List SOp) (h : .close ∉ ops) :
    Prefixed (requestsOf [] ops) (runHttp W.recorded ops Http.newPost (n, [])).2.2.2 := by
  obtain ⟨l', h1, h2⟩ := suffix_run W ops none [] [] n [] h
  rw [show (Http.newPost : Http ρ) = ⟨none, some ([] ++ [])⟩ from rfl, h1]
  exact h2

example := C110_suffix_partial downWeb () [.write [1], .flush, .write [2], .flush] (by decide)

/-! ## C111: responses -/

/-- C111.  After a flush, `Read` hands over the response to that flush, and nothing if
the flush failed. -/
def C111_statement : Prop :=
  ∀ (ρ ν : Type) (W : Web ρ ν) (s s' : Http ρ) (n n' : ν) (e : GoErr), s.flush W n = (.ok e, s', n') → ∀ k x,
    match e with
    | some _ => ∃ e', (s'.read W k x).1 = ([], some e')
    | none => ∃ b r, s.request = some b ∧ (W.post b n).1.2 = .ok (200, r) ∧
        s'.read W k x = (((W.readBody k r x).1.1, transportFromOsError (W.readBody k r x).1.2), (W.readBody k r x).2)

/-- A web that is down and has an old page. -/
def oldWeb : Web Unit Unit := { downWeb with readBody := fun _ _ _ => (([1], none), ()) }

/-- C111 does not hold: after a failed flush the response before is read. -/
theorem C111_violated : ¬ C111_statement := by
  intro h
  obtain ⟨e', h⟩ := h _ _ oldWeb ⟨some (), some []⟩ ⟨some (), some []⟩ () () _ rfl 1 ()
  exact nomatch h

/-- What holds: it is so for flushes that succeed, and for those that fail while there
is no response. -/
theorem C111_partial (W : Web ρ ν) (s s' : Http ρ) (n n' : ν) (e : GoErr) (h : s.flush W n = (.ok e, s', n'))
    (hs : e = none ∨ s.response = none) (k : Nat) (x : ν) :
    match e with
    | some _ => ∃ m, s'.read W k x = (([], some ⟨.transport, 1, m⟩), x)
    | none => ∃ b r, s.request = some b ∧ (W.post b n).1.2 = .ok (200, r) ∧
        s'.read W k x = (((W.readBody k r x).1.1, transportFromOsError (W.readBody k r x).1.2), (W.readBody k r x).2) := by
  obtain ⟨r, q⟩ := s
  cases q with
  | none => exact nomatch h
  | some b =>
    simp only [Http.flush] at h
    rcases hq : W.post b n with ⟨⟨t, e' | ⟨st, y⟩⟩, m⟩
    · rw [hq] at h
      obtain ⟨g, hg⟩ : ∃ g, transportFromOsError (some e') = some g := by
        unfold transportFromOsError
        split <;> rename_i h
        · exact nomatch h
        · split
          · exact ⟨_, rfl⟩
          · split <;> exact ⟨_, rfl⟩
      simp only [Prod.mk.injEq, Res.ok.injEq, hg] at h
      obtain ⟨rfl, rfl, rfl⟩ := h
      rcases hs with hs | hs
      · exact nomatch hs
      · simp only at hs
        subst hs
        exact ⟨_, rfl⟩
    · rw [hq] at h
      simp only at h
      split at h
      · simp only [Prod.mk.injEq, Res.ok.injEq] at h
        obtain ⟨rfl, rfl, rfl⟩ := h
        rcases hs with hs | hs
        · exact nomatch hs
        · simp only at hs
          subst hs
          exact ⟨_, rfl⟩
      · rename_i hst
        simp only [Prod.mk.injEq, Res.ok.injEq] at h
        obtain ⟨rfl, rfl, rfl⟩ := h
        have hst : st = 200 := Decidable.not_not.1 hst
        subst hst
        exact ⟨b, y, rfl, by rw [hq], rfl⟩

/-- What a flush reports: an error of the request as a transport exception, a status
other than 200 as one with the status in its text, nothing otherwise. -/
theorem C111_reported (W : Web ρ ν) (s s' : Http ρ) (n n' : ν) (e : GoErr) (h : s.flush W n = (.ok e, s', n')) :
    ∃ b, s.request = some b ∧ match (W.post b n).1.2 with
      | .error x => ∃ m, e = some m ∧ m.kind ≠ .other ∧ m.kind ≠ .eof ∧ m.msg = x.msg
      | .ok (status, _) => if status = 200 then e = none else e = some ⟨.transport, 0, ascii "HTTP Response code: " ++ ascii (toString status)⟩ := by
  obtain ⟨r, q⟩ := s
  cases q with
  | none => exact nomatch h
  | some b =>
    refine ⟨b, rfl, ?_⟩
    simp only [Http.flush] at h
    rcases hq : W.post b n with ⟨⟨t, e' | ⟨st, y⟩⟩, m⟩
    · rw [hq] at h
      simp only [Prod.mk.injEq, Res.ok.injEq] at h
      obtain ⟨rfl, rfl, rfl⟩ := h
      rcases e' with ⟨k, c, t⟩
      cases k <;> exact ⟨_, rfl, nofun, nofun, rfl⟩
    · rw [hq] at h
      simp only at h ⊢
      split at h
      · rename_i hst
        rw [if_neg hst]
        simp only [Prod.mk.injEq, Res.ok.injEq] at h
        exact h.1.symm
      · rename_i hst
        rw [if_pos (Decidable.not_not.1 hst)]
        simp only [Prod.mk.injEq, Res.ok.injEq] at h
        exact h.1.symm

example := C111_reported downWeb Http.newPost _ () () _ rfl

example := C111_partial blankWeb Http.newPost ⟨some (), some []⟩ () () none rfl (.inl rfl) 5 ()

/-! ## C112: responses are closed -/

/-- C112.  After a `Close` no response is left open. -/
def C112_statement : Prop :=
  ∀ (ρ ν : Type) [DecidableEq ρ] (W : Web ρ ν) (n : ν) (ops : List SOp),
    (runHttp W.counted (ops ++ [.close]) Http.newPost (n, [])).2.2.2 = []

/-- C112 does not hold: a flush drops the response before without closing it. -/
theorem C112_violated : ¬ C112_statement := by
  intro h
  have := h _ _ blankWeb () [.flush, .flush]
  exact absurd this (by decide)

/-- A web that answers every request with status 500. -/
def brokenWeb : Web Unit Unit := { blankWeb with post := fun b _ => ((b.length, .ok (500, ())), ()) }

/-- The response to a failed request is not closed. -/
theorem C112_status_violated : ¬ C112_statement := by
  intro h
  have := h _ _ brokenWeb () [.flush]
  exact absurd this (by decide)

/-- The calls of one request: writes, a flush, reads, and `Close`. -/
def exchange (x : List Bytes × List Nat) : List SOp := x.1.map .write ++ .flush :: x.2.map .read ++ [.close]

theorem run_append (W : Web ρ ν) : ∀ (xs ys : List SOp) (s : Http ρ) (n : ν),
    (runHttp W (xs ++ ys) s n).2 = (runHttp W ys (runHttp W xs s n).2.1 (runHttp W xs s n).2.2).2
  | [], _, _, _ => rfl
  | op :: xs, ys, s, n => by
    rw [List.cons_append, runHttp, runHttp]
    exact run_append W xs ys _ _

theorem run_writes (W : Web ρ ν) : ∀ (ws : List Bytes) (s : Http ρ) (n : ν),
    ∃ q, (runHttp W (ws.map .write) s n).2 = (⟨s.response, q⟩, n)
  | [], s, n => ⟨s.request, rfl⟩
  | w :: ws, ⟨r, q⟩, n => by
    rw [List.map_cons, runHttp]
    cases q with
    | none => exact run_writes W ws ⟨r, none⟩ n
    | some b => exact run_writes W ws ⟨r, some (b ++ w)⟩ n

theorem run_reads [DecidableEq ρ] (W : Web ρ ν) : ∀ (ks : List Nat) (s : Http ρ) (n : ν) (l : List ρ),
    ∃ n', (runHttp W.counted (ks.map .read) s (n, l)).2 = (s, (n', l))
  | [], s, n, l => ⟨n, rfl⟩
  | k :: ks, s, n, l => by
    obtain ⟨r, q⟩ := s
    rw [List.map_cons, runHttp]
    cases r with
    | none => exact run_reads W ks _ n l
    | some r => exact run_reads W ks _ _ l

theorem counted_flush [DecidableEq ρ] (W : Web ρ ν) (hW : ∀ b n st r, (W.post b n).1.2 = .ok (st, r) → st = 200) (q : Option Bytes) (n : ν) :
    ∃ r q' n', (SOp.runHttp W.counted .flush ⟨none, q⟩ (n, [])).2 = (⟨r, q'⟩, (n', r.toList)) := by
  cases q with
  | none => exact ⟨none, none, n, rfl⟩
  | some b =>
    have hs := hW b n
    simp only [SOp.runHttp, Http.flush, Web.counted]
    generalize W.post b n = y at hs
    rcases y with ⟨⟨k, e | ⟨st, x⟩⟩, n'⟩
    · exact ⟨none, _, _, rfl⟩
    · rw [hs st x rfl]
      exact ⟨some x, _, _, rfl⟩

/-- What holds: if the web answers with status 200 or with errors and the client closes
its response after every request, none is left open. -/
theorem C112_partial [DecidableEq ρ] (W : Web ρ ν) (hW : ∀ b n st r, (W.post b n).1.2 = .ok (st, r) → st = 200) (n : ν)
    (xs : List (List Bytes × List Nat)) : (runHttp W.counted (xs.map exchange).flatten Http.newPost (n, [])).2.2.2 = [] := by
  have key : ∀ (xs : List (List Bytes × List Nat)) (q : Option Bytes) (n : ν),
      (runHttp W.counted (xs.map exchange).flatten ⟨none, q⟩ (n, [])).2.2.2 = [] := by
    intro xs
    induction xs with
    | nil => intro q n; rfl
    | cons x xs ih =>
      intro q n
      obtain ⟨q1, h1⟩ := run_writes W.counted x.1 ⟨none, q⟩ (n, [])
      obtain ⟨r, q2, n2, h2⟩ := counted_flush W hW q1 n
      obtain ⟨n3, h3⟩ := run_reads W x.2 ⟨r, q2⟩ n2 r.toList
      rw [List.map_cons, List.flatten_cons, run_append, exchange, run_append, run_append, h1]
      have h4 : (runHttp W.counted (SOp.flush :: x.2.map .read) ⟨none, q1⟩ (n, [])).2 = (⟨r, q2⟩, (n3, r.toList)) := by
        rw [← h3, runHttp]
        simp only [h2]
      rw [h4]
      cases r with
      | none => exact ih _ _
      | some r =>
        have h5 : (runHttp W.counted [.close] ⟨some r, q2⟩ (n3, [r])).2 = (⟨none, q2⟩, ((W.closeBody r n3).2, [])) := by
          simp [runHttp, SOp.runHttp, Http.close, Web.counted]
        rw [show (some r).toList = [r] from rfl, h5]
        exact ih _ _
  exact key xs _ n

example := C112_partial blankWeb (by intro b n st r h; cases h; rfl) () [([[1], [2]], [4, 4]), ([], [1])]

/-! ## C114: no panics -/

/-- C114.  No call on an HTTP client panics. -/
def C114_statement : Prop :=
  ∀ (ρ ν : Type) (W : Web ρ ν) (n : ν) (s : Http ρ) (ops : List SOp) (x : SOp × SAns),
    s = Http.newPost ∨ (Http.newGet W n).1 = .ok s → x ∈ (runHttp W ops s n).1 → x.2 ≠ .panicked

/-- C114 does not hold: a client for GET requests has no request buffer. -/
theorem C114_violated : ¬ C114_statement := fun h =>
  h _ _ blankWeb () ⟨some (), none⟩ [.write [1]] (.write [1], .panicked) (.inr rfl) (by simp [runHttp, SOp.runHttp, Http.write]) rfl

/-- A client for POST requests has none after `Close`. -/
theorem C114_closed_violated : ¬ C114_statement := fun h =>
  h _ _ blankWeb () Http.newPost [.close, .flush] (.flush, .panicked) (.inl rfl)
    (by simp [runHttp, SOp.runHttp, Http.flush, Http.close, Http.newPost]) rfl

/-- What holds: calls on a POST client do not panic before it is closed. -/
theorem C114_partial (W : Web ρ ν) (n : ν) (ops : List SOp) (h : .close ∉ ops) (x : SOp × SAns)
    (hx : x ∈ (runHttp W ops Http.newPost n).1) : x.2 ≠ .panicked := by
  have key : ∀ (ops : List SOp) (r : Option ρ) (b : Bytes) (n : ν), .close ∉ ops → ∀ x ∈ (runHttp W ops ⟨r, some b⟩ n).1, x.2 ≠ .panicked := by
    intro ops
    induction ops with
    | nil => intro r b n _ x hx; exact nomatch hx
    | cons op ops ih =>
      intro r b n h x hx
      have h' : .close ∉ ops := fun hh => h (List.mem_cons_of_mem _ hh)
      rw [runHttp] at hx
      cases op with
      | close => exact absurd List.mem_cons_self h
      | flush =>
        obtain ⟨e, r', h1⟩ := flush_run W r b n
        rw [h1] at hx
        rcases List.mem_cons.1 hx with rfl | hx
        · exact nofun
        · exact ih _ _ _ h' x hx
      | _ =>
        rcases List.mem_cons.1 hx with rfl | hx
        · exact nofun
        · exact ih _ _ _ h' x hx
  exact key ops none [] n h x hx

example := C114_partial downWeb () [.write [1], .flush, .read 3] (by decide)

end Thrift
