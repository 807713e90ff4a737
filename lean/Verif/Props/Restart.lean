import Verif.Props.NonblockingServer
/-!
# C122: serving again after `Stop`
-/

namespace Thrift

/-- `Serve` is called, makes a listener, and accepts a connection. -/
def Nb.CanServe (s : Nb) : Prop :=
  ∃ s', NbExec s [.start, .serve, .serve, .serve, .serve, .serve, .accepted s.conns.length] s'

/-- C122.  When `Stop` and `Serve` have returned, `Serve` can be called again and
accepts connections. -/
def C122_statement : Prop := ∀ g a1 a2 b s, NbExec (.new g) (a1 ++ .stop :: a2 ++ .stopReturned :: b) s → .start ∈ a1 →
  .start ∉ a2 → .start ∉ b → .stopFailed ∉ a2 → s.dead = false → (∃ e, s.pc = .returned e) → s.CanServe

/-- The listeners in use are old ones. -/
theorem NbExec.listeners {g ls s} (h : NbExec (.new g) ls s) :
    (∀ l ∈ s.closed, l < s.listeners) ∧ (∀ l, s.listener = some l → l < s.listeners) ∧ ∀ l, s.stop = .close l → l < s.listeners := by
  generalize hg : Nb.new g = s0 at h
  induction h with
  | nil => subst hg; cases g <;> simp [Nb.new]
  | snoc _ h ih =>
    obtain ⟨h1, h2, h3⟩ := ih
    cases h
    case bindOk hd hp =>
      exact ⟨fun l hl => Nat.lt_succ_of_lt (h1 l hl), fun l hl => by simp only [Option.some.injEq] at hl ⊢; omega,
        fun l hl => Nat.lt_succ_of_lt (h3 l hl)⟩
    all_goals simp_all

theorem NbExec.same_state {s s'} (h : NbExec s [] s') : s = s' := by
  generalize hl : [] = ls at h
  cases h with
  | nil => rfl
  | snoc => simp at hl

/-- When `Serve` has returned, another call of it can accept a connection exactly if
no listener is left. -/
theorem NbExec.canServe {g ls s} (h : NbExec (.new g) ls s) (hd : s.dead = false) (hr : ∃ e, s.pc = .returned e) :
    s.CanServe ↔ s.listener = none := by
  constructor
  · rintro ⟨s', h'⟩
    obtain ⟨s1, s2, h1, h2, h3⟩ := h'.split [] .start _ rfl
    obtain ⟨s3, s4, h4, h5, h6⟩ := h3.split [] .serve _ rfl
    obtain rfl := h1.same_state
    obtain rfl := h4.same_state
    cases h2
    case conn k => rcases k.work.1 with k | k <;> simp [NbEvent.work] at k
    case start =>
      cases h5 <;> simp_all
      case conn k => rcases k.work.1 with k | k <;> simp [NbEvent.work] at k
  · intro hl
    obtain ⟨k1, -, -⟩ := h.listeners
    exact ⟨_, .cons (.start _ hd (.inr hr)) <| .cons (.listenNil _ hd rfl hl) <| .cons (.bindOk _ hd rfl) <|
      .cons (.checkGo _ hd rfl rfl) <| .cons (.acceptOpen _ s.listeners hd rfl rfl) <| .cons (.take _ s.listeners hd rfl rfl) <|
      .cons (.accepted _ s.listeners hd rfl fun k => Nat.lt_irrefl _ (k1 _ k)) <| .nil _⟩

/-- A listener that `Stop` came too early for is in the way of the next call. -/
theorem C122_violated : ¬ C122_statement := by
  intro h
  have e : NbExec (.new false) ([.start] ++ .stop :: [.stopping] ++ .stopReturned :: [.serve, .serve, .returned none])
      ⟨true, .returned none, .idle, some 0, [], 1, [], false⟩ :=
    .cons (.start _ rfl (.inl rfl)) <| .cons (.stop _ rfl rfl) <| .cons (.stopNil _ rfl rfl rfl) <| .cons (.stopReturn _ rfl rfl) <|
    .cons (.listenNil _ rfl rfl rfl) <| .cons (.bindOk _ rfl rfl) <| .cons (.checkStop _ rfl rfl rfl) <| .nil _
  have := h _ _ _ _ _ e (by decide) (by decide) (by decide) (by decide) rfl ⟨_, rfl⟩
  have := (e.canServe rfl ⟨_, rfl⟩).mp this
  cases this

/-- `Serve` has made its listener. -/
def NbPc.past : NbPc → Bool
  | .idle | .listen | .bind => false
  | _ => true

theorem ConnStep.not_serve {st n c e c'} (h : ConnStep st n c e c') : [e].count NbEvent.serve = 0 := by
  refine List.count_eq_zero.mpr fun k => ?_
  obtain rfl := List.mem_singleton.mp k
  rcases h.work.1 with k | k <;> simp [NbEvent.work] at k

theorem NbExec.past {s ls s'} (h : NbExec s ls s') (hs : .start ∉ ls) (hi : s.pc = .listen) :
    (s'.pc = .listen → ls.count .serve = 0) ∧ (s'.pc = .bind → ls.count .serve ≤ 1) ∧ s'.pc ≠ .idle := by
  induction h with
  | nil => simp [hi]
  | snoc _ h ih =>
    obtain ⟨h1, h2, h3⟩ := ih (fun k => hs (by simp [k]))
    cases h
    case conn m hm c hd k =>
      rw [List.count_append, k.not_serve, Nat.add_zero]
      exact ⟨h1, h2, h3⟩
    case start => simp at hs
    all_goals simp_all [List.count_append]

/-- No listener is made any more and the one there is is going to be closed. -/
def Nb.Closing (s : Nb) : Prop := s.pc.past = true ∧ (s.listener = none ∨ s.stop = .test ∨ (∃ l, s.stop = .close l) ∨ s.stop = .clear)

theorem NbStep.closing {s l s'} (h : NbStep s l s') (hl : l ≠ .start) (hf : l ≠ .stopFailed) (hc : s.Closing) : s'.Closing := by
  obtain ⟨h1, h2⟩ := hc
  cases h
  case start => exact absurd rfl hl
  case stopCloseErr => exact absurd rfl hf
  all_goals simp_all [Nb.Closing, NbPc.past]

theorem NbExec.closing {s ls s'} (h : NbExec s ls s') (hl : .start ∉ ls) (hf : .stopFailed ∉ ls) (hc : s.Closing) : s'.Closing := by
  induction h with
  | nil => exact hc
  | snoc _ h ih =>
    exact h.closing (by rintro rfl; simp at hl) (by rintro rfl; simp at hf) (ih (fun k => hl (by simp [k])) (fun k => hf (by simp [k])))

theorem NbStep.gone {s l s'} (h : NbStep s l s') (hl : l ≠ .start) (hp : s.pc.past = true) (hn : s.listener = none) :
    s'.pc.past = true ∧ s'.listener = none := by
  cases h
  case start => exact absurd rfl hl
  all_goals simp_all [NbPc.past]

theorem NbExec.gone {s ls s'} (h : NbExec s ls s') (hl : .start ∉ ls) (hp : s.pc.past = true) (hn : s.listener = none) :
    s'.pc.past = true ∧ s'.listener = none := by
  induction h with
  | nil => exact ⟨hp, hn⟩
  | snoc _ h ih =>
    have := ih (fun k => hl (by simp [k]))
    exact h.gone (by rintro rfl; simp at hl) this.1 this.2

/-- It can if `Serve` had made its listener (its second step) when `Stop` was called:
whatever else went on, the program has not ended, and the listener could be closed. -/
theorem C122_partial {g a y a2 b s} (h : NbExec (.new g) (a ++ .start :: y ++ .stop :: a2 ++ .stopReturned :: b) s) (hy : .start ∉ y)
    (h2 : 2 ≤ y.count .serve) (ha : .start ∉ a2) (hb : .start ∉ b) (hf : .stopFailed ∉ a2) (hd : s.dead = false)
    (hr : ∃ e, s.pc = .returned e) : s.CanServe := by
  refine (h.canServe hd hr).mpr ?_
  obtain ⟨s1, s2, e1, r1, e2⟩ := h.split (a ++ .start :: y ++ .stop :: a2) _ b rfl
  obtain ⟨s3, s4, e3, r3, e4⟩ := e1.split (a ++ .start :: y) _ a2 rfl
  obtain ⟨s5, s6, e5, r5, e6⟩ := e3.split a _ y rfl
  have p6 : s6.pc = .listen := by
    cases r5
    case start => rfl
    case conn k => rcases k.work.1 with k | k <;> simp [NbEvent.work] at k
  obtain ⟨p1, p2, p3⟩ := e6.past hy p6
  have p4 : s3.pc.past = true := by
    revert p1 p2 p3
    cases s3.pc <;> simp [NbPc.past] <;> omega
  have c4 : s4.Closing := by
    cases r3
    case stop => exact ⟨p4, .inr (.inl rfl)⟩
    case conn k => rcases k.work.1 with k | k <;> simp [NbEvent.work] at k
  have c1 := e4.closing ha hf c4
  have n1 : s1.listener = none := by
    cases r1
    case stopReturn hs => simpa [hs] using c1.2
    case conn k => rcases k.work.1 with k | k <;> simp [NbEvent.work] at k
  have := r1.gone (by simp) c1.1 n1
  exact (e2.gone hb this.1 this.2).2

/-- The hypotheses are met. -/
example : ∃ s, NbExec (.new false) ([] ++ .start :: [.serve, .serve, .serve, .serve, .serve, .accepted 0, .serve, .serve,
    .serve, .made 0 true true] ++ .stop :: [.stopping, .stopping, .stopping] ++ .stopReturned :: [.returned (some .network)]) s ∧
    s.dead = false ∧ ∃ e, s.pc = .returned e :=
  ⟨_, .cons (.start _ rfl (.inl rfl)) <| .cons (.listenNil _ rfl rfl rfl) <| .cons (.bindOk _ rfl rfl) <|
    .cons (.checkGo _ rfl rfl rfl) <| .cons (.acceptOpen _ 0 rfl rfl rfl) <| .cons (.take _ 0 rfl rfl rfl) <|
    .cons (.accepted _ 0 rfl rfl (by simp [Nb.new])) <|
    .cons (.checkGo _ rfl rfl rfl) <| .cons (.acceptOpen _ 0 rfl rfl rfl) <| .cons (.take _ 0 rfl rfl rfl) <|
    .cons (.conn _ 0 _ (by decide) _ rfl (.made true true)) <|
    .cons (.stop _ rfl rfl) <| .cons (.stopOpen _ 0 rfl rfl rfl) <| .cons (.stopClose _ 0 rfl rfl) <| .cons (.stopClear _ rfl rfl) <|
    .cons (.stopReturn _ rfl rfl) <| .cons (.acceptErr _ 0 rfl rfl) <| .nil _, rfl, _, rfl⟩

end Thrift
