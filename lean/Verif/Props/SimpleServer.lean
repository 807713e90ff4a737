import Verif.Spec.SimpleServer
/-!
# C62: the life cycle of the simple server
-/

namespace Thrift

/-- C62. -/
def C62_statement : Prop := ∀ ls s, SrvExec .new ls s → Orderly ls ∧ Stops ls ∧ Calm ls

theorem SrvExec.trans {s ls s' ls' s''} (h1 : SrvExec s ls s') (h2 : SrvExec s' ls' s'') : SrvExec s (ls ++ ls') s'' := by
  induction h2 with
  | nil => simpa using h1
  | snoc _ h ih => rw [← List.append_assoc]; exact .snoc ih h

theorem SrvExec.cons {s l s' ls s''} (h1 : SrvStep s l s') (h2 : SrvExec s' ls s'') : SrvExec s (l :: ls) s'' :=
  SrvExec.trans (.snoc (.nil _) h1) h2

/-- `Stop` runs to its end between the loop condition and `Accept`: `Accept` finds
no listener, makes a new one and accepts. -/
theorem C62_violated : ¬ C62_statement := by
  intro h
  have e : SrvExec .new [.start, .serve, .serve, .stop, .stopping, .stopping, .stopping, .stopReturned, .serve, .serve, .serve, .serve,
      .accepted 0 true true] ⟨true, .process 0 true true, .idle, some 1, [0], 2, 1⟩ := by
    refine .cons (.start _ rfl) <| .cons (.listenOk _ rfl rfl) <| .cons (.checkGo _ rfl rfl) <| .cons (.stop _ rfl) <|
      .cons (.stopOpen _ 0 rfl rfl) <| .cons (.stopClose _ 0 rfl) <| .cons (.stopClear _ rfl) <| .cons (.stopReturn _ rfl) <|
      .cons (.acceptNil _ rfl rfl) <| .cons (.relistenOk _ rfl rfl) <| .cons (.recheckOpen _ 1 rfl rfl) <| .cons (.take _ 1 rfl rfl) <|
      .cons (.accepted _ 1 true true rfl (by decide)) <| .nil _
  have := (h _ _ e).2.1 [.start, .serve, .serve, .stop, .stopping, .stopping, .stopping] [.serve, .serve, .serve, .serve, .accepted 0 true true]
    rfl ⟨[.start, .serve, .serve], [.stopping, .stopping, .stopping], rfl, by decide⟩ (.accepted 0 true true) (by decide)
  exact absurd this (by decide)

/-- `Stop` closes the listener between the test and its use: `Serve` panics. -/
theorem C62_crash_violated : ¬ ∀ ls s, SrvExec .new ls s → Calm ls := by
  intro h
  have e : SrvExec .new [.start, .serve, .serve, .serve, .stop, .stopping, .stopping, .stopping, .crashed]
      ⟨true, .crashed, .done, none, [0], 1, 0⟩ :=
    .cons (.start _ rfl) <| .cons (.listenOk _ rfl rfl) <| .cons (.checkGo _ rfl rfl) <| .cons (.acceptOpen _ 0 rfl rfl) <|
    .cons (.stop _ rfl) <| .cons (.stopOpen _ 0 rfl rfl) <| .cons (.stopClose _ 0 rfl) <| .cons (.stopClear _ rfl) <|
    .cons (.takeNil _ rfl rfl) <| .nil _
  exact h _ _ e (by decide) (by decide)

/-- A call of `Stop` that comes just before `Serve` resets the flag is lost: the
server listens and accepts. -/
theorem C62_early_violated : ¬ ∀ a b s, SrvExec .new (a ++ .stopReturned :: b) s → ∀ l ∈ b, l.isAccepted = false := by
  intro h
  have e : SrvExec .new ([.stop, .stopping] ++ .stopReturned :: [.start, .serve, .serve, .serve, .serve, .accepted 0 true true])
      ⟨false, .process 0 true true, .idle, some 0, [], 1, 1⟩ :=
    .cons (.stop _ rfl) <| .cons (.stopNil _ rfl rfl) <| .cons (.stopReturn _ rfl) <| .cons (.start _ rfl) <|
    .cons (.listenOk _ rfl rfl) <| .cons (.checkGo _ rfl rfl) <| .cons (.acceptOpen _ 0 rfl rfl) <| .cons (.take _ 0 rfl rfl) <|
    .cons (.accepted _ 0 true true rfl (by decide)) <| .nil _
  exact absurd (h _ _ _ e (.accepted 0 true true) (by decide)) (by decide)

/-! ## Connections -/

/-- What has been seen, by where the server stands. -/
def SrvSeen (s : Srv) (tr : List SrvEvent) : Prop :=
  match s.pc with
  | .process n i o => n + 1 = s.conns ∧ ∃ tr' k, Sequential n tr' ∧ tr = tr' ++ .accepted n i o :: List.replicate k (.processed n)
  | .closeOut n i o _ => n + 1 = s.conns ∧ ∃ tr' k, Sequential n tr' ∧
      tr = tr' ++ .accepted n i o :: List.replicate (k + 1) (.processed n)
  | .closeIn n i p => n + 1 = s.conns ∧ ((∃ tr' o k, Sequential n tr' ∧ tr = tr' ++ (.accepted n i o ::
      List.replicate (k + 1) (.processed n) ++ if o then [.closedOut n] else [])) ∨ p = true ∧ i = false ∧ Sequential (n + 1) tr)
  | _ => Sequential s.conns tr

theorem Sequential.close {n : Nat} {i o : Bool} {k : Nat} {tr tr' : List SrvEvent} (h : Sequential n tr')
    (e : tr = tr' ++ (.accepted n i o :: List.replicate (k + 1) (.processed n) ++ if o then [.closedOut n] else [])) :
    Sequential (n + 1) (tr ++ if i then [.closedIn n] else []) := by
  subst e
  have := Sequential.snoc i o k h
  simpa [oneConnection, List.append_assoc] using this

theorem SrvSeen.step {s s' : Srv} {l : SrvEvent} {tr : List SrvEvent} (h : SrvSeen s tr) (hs : SrvStep s l s') :
    SrvSeen s' (tr ++ [l].filter SrvEvent.ofConn) := by
  cases hs
  all_goals
    try simp only [SrvEvent.ofConn, List.filter_cons, List.filter_nil, if_true, if_false, Bool.false_eq_true, List.append_nil]
  case accepted l i o hp _ =>
    simp only [SrvSeen, hp] at h ⊢
    exact ⟨trivial, tr, 0, h, rfl⟩
  case processOn n i o err hp _ =>
    simp only [SrvSeen, hp] at h ⊢
    obtain ⟨h0, tr', k, h1, h2⟩ := h
    exact ⟨h0, tr', k + 1, h1, by rw [h2, List.append_assoc, List.cons_append, ← List.replicate_succ']⟩
  case processErr n i o hp _ =>
    simp only [SrvSeen, hp] at h ⊢
    obtain ⟨h0, tr', k, h1, h2⟩ := h
    exact ⟨h0, tr', k, h1, by rw [h2, List.append_assoc, List.cons_append, ← List.replicate_succ']⟩
  case processEnd n i o hp =>
    simp only [SrvSeen, hp] at h ⊢
    obtain ⟨h0, tr', k, h1, h2⟩ := h
    exact ⟨h0, tr', k, h1, by rw [h2, List.append_assoc, List.cons_append, ← List.replicate_succ']⟩
  case processPanic n i o hp =>
    simp only [SrvSeen, hp] at h ⊢
    obtain ⟨h0, tr', k, h1, h2⟩ := h
    exact ⟨h0, tr', k, h1, by rw [h2, List.append_assoc, List.cons_append, ← List.replicate_succ']⟩
  case closeOut n i p hp =>
    simp only [SrvSeen, hp] at h ⊢
    obtain ⟨h0, tr', k, h1, h2⟩ := h
    exact ⟨h0, .inl ⟨tr', true, k, h1, by simp [h2]⟩⟩
  case closeOutNil n i p hp =>
    simp only [SrvSeen, hp] at h ⊢
    obtain ⟨h0, tr', k, h1, h2⟩ := h
    exact ⟨h0, .inl ⟨tr', false, k, h1, by simp [h2]⟩⟩
  case closeIn n hp =>
    simp only [SrvSeen, hp] at h ⊢
    obtain ⟨h0, ⟨tr', o, k, h1, h2⟩ | h⟩ := h
    · rw [← h0]; exact h1.close h2
    · exact absurd h.1 (by decide)
  case closeInNil n hp =>
    simp only [SrvSeen, hp] at h ⊢
    obtain ⟨h0, ⟨tr', o, k, h1, h2⟩ | h⟩ := h
    · rw [← h0]; simpa using h1.close h2
    · exact absurd h.1 (by decide)
  case closeInPanic n hp =>
    simp only [SrvSeen, hp] at h ⊢
    obtain ⟨h0, ⟨tr', o, k, h1, h2⟩ | h⟩ := h
    · exact ⟨h0, .inr ⟨trivial, trivial, h1.close h2⟩⟩
    · exact absurd h.2.1 (by decide)
  case panic n hp =>
    simp only [SrvSeen, hp] at h ⊢
    obtain ⟨h0, ⟨tr', o, k, h1, h2⟩ | h⟩ := h
    · rw [← h0]; simpa using h1.close h2
    · rw [← h0]; exact h.2.2
  case stop => exact h
  case stopOpen => exact h
  case stopNil => exact h
  case stopClose => exact h
  case stopCloseErr => exact h
  case stopClear => exact h
  case stopReturn => exact h
  all_goals first
    | (rename_i hp _; simp only [SrvSeen, hp] at h ⊢; exact h)
    | (rename_i hp; simp only [SrvSeen, hp] at h ⊢; exact h)

theorem SrvExec.seen {ls s} (h : SrvExec .new ls s) : SrvSeen s (ls.filter SrvEvent.ofConn) := by
  generalize hn : Srv.new = s0 at h
  induction h with
  | nil => subst hn; exact Sequential.nil
  | snoc _ h ih => rw [List.filter_append]; exact ih.step h

/-- Executions can be cut anywhere. -/
theorem SrvExec.split {s ls s'} (h : SrvExec s ls s') : ∀ a l b, ls = a ++ l :: b →
    ∃ s1 s2, SrvExec s a s1 ∧ SrvStep s1 l s2 ∧ SrvExec s2 b s' := by
  induction h with
  | nil => intro a l b e; simp at e
  | @snoc ls s2 l0 s3 h1 h2 ih =>
    intro a l b e
    rcases List.eq_nil_or_concat b with rfl | ⟨b, x, rfl⟩
    · have := List.append_inj' e rfl
      obtain ⟨rfl, e⟩ := this
      obtain rfl : l0 = l := by simpa using e
      exact ⟨_, _, h1, h2, .nil _⟩
    · rw [List.concat_eq_append, ← List.cons_append, ← List.append_assoc] at e
      obtain ⟨rfl, e⟩ := List.append_inj' e rfl
      obtain rfl : l0 = x := by simpa using e
      obtain ⟨s4, s5, h3, h4, h5⟩ := ih a l b rfl
      exact ⟨s4, s5, h3, h4, by rw [List.concat_eq_append]; exact .snoc h5 h2⟩

/-- The part of C62 about connections, in every execution: they are served one after
another in the order of acceptance and both transports are closed, also when the
processor panics or `Stop` interferes. -/
theorem C62_connections_partial {ls s} (h : SrvExec .new ls s) : Orderly ls := by
  intro a l b e hl
  obtain ⟨s1, s2, h1, h2, -⟩ := h.split a l b e
  have := h1.seen
  cases h2 <;> simp only [SrvEvent.isAccepted, SrvEvent.isEnd, Bool.false_eq_true, or_self] at hl
  case panic n hp =>
    simp only [SrvSeen, hp] at this
    obtain ⟨h0, ⟨tr', o, k, h3, h4⟩ | h⟩ := this
    · exact ⟨_, by simpa using h3.close h4⟩
    · exact ⟨_, h.2.2⟩
  all_goals first
    | (rename_i hp _; simp only [SrvSeen, hp] at this; exact ⟨_, this⟩)
    | (rename_i hp; simp only [SrvSeen, hp] at this; exact ⟨_, this⟩)

/-! ## Stopping -/

/-- How many connections a stopped server can still accept. -/
def SrvPc.room : SrvPc → Nat
  | .accept | .relisten | .recheck | .take | .wait _ => 1
  | _ => 0

/-- How many steps a stopped server can still make, calls of `Process` not counted. -/
def SrvPc.steps : SrvPc → Nat
  | .idle => 0 | .listen => 2 | .check => 1 | .accept => 11 | .relisten => 10 | .recheck => 9 | .take => 8 | .wait _ => 7
  | .process _ _ _ => 5 | .closeOut _ _ _ _ => 4 | .closeIn _ i _ => if i then 3 else 2 | .returned _ => 0 | .crashed => 0

theorem SrvStep.stopped {s l s'} (h : SrvStep s l s') (hs : s.stopped = true) (hp : s.pc ≠ .idle) :
    s'.stopped = true ∧ s'.pc ≠ .idle ∧ [l].countP SrvEvent.isAccepted + s'.pc.room ≤ s.pc.room ∧
      [l].countP SrvEvent.ofServe + s'.pc.steps ≤ s.pc.steps := by
  cases h
  case start h => exact absurd h hp
  case checkGo h h' => rw [hs] at h'; cases h'
  case processErr h h' => rw [hs] at h'; cases h'
  all_goals simp_all [SrvEvent.isAccepted, SrvEvent.ofServe, SrvPc.room, SrvPc.steps]
  all_goals (split <;> omega)

theorem SrvExec.stopped {s ls s'} (h : SrvExec s ls s') (hs : s.stopped = true) (hp : s.pc ≠ .idle) :
    s'.stopped = true ∧ s'.pc ≠ .idle ∧ ls.countP SrvEvent.isAccepted + s'.pc.room ≤ s.pc.room ∧
      ls.countP SrvEvent.ofServe + s'.pc.steps ≤ s.pc.steps := by
  induction h with
  | nil => simp [hs, hp]
  | snoc _ h ih =>
    obtain ⟨h1, h2, h3, h4⟩ := ih
    obtain ⟨k1, k2, k3, k4⟩ := h.stopped h1 h2
    refine ⟨k1, k2, ?_, ?_⟩
    · rw [List.countP_append]; omega
    · rw [List.countP_append]; omega

/-- A server that was started has left its initial state. -/
theorem SrvExec.started {s ls s'} (h : SrvExec s ls s') (hl : .start ∈ ls) : s'.pc ≠ .idle := by
  induction h with
  | nil => simp at hl
  | @snoc ls s2 l0 s3 h1 h2 ih =>
    rw [List.mem_append] at hl
    rcases hl with hl | hl
    · have := ih hl
      cases h2 <;> simp_all
    · rw [List.mem_singleton] at hl
      subst hl
      cases h2
      simp

theorem SrvPc.room_le (pc : SrvPc) : pc.room ≤ 1 := by cases pc <;> simp [SrvPc.room]
theorem SrvPc.steps_le (pc : SrvPc) : pc.steps ≤ 11 := by
  cases pc <;> simp only [SrvPc.steps] <;> first | omega | (split <;> omega)

/-- A stopped server accepts at most one more connection and makes at most eleven
more steps besides the requests of that connection or the one at hand. -/
theorem C62_stop_partial {a b s} (h : SrvExec .new (a ++ .stop :: b) s) (ha : .start ∈ a) :
    b.countP SrvEvent.isAccepted ≤ 1 ∧ b.countP SrvEvent.ofServe ≤ 11 := by
  obtain ⟨s1, s2, h1, h2, h3⟩ := h.split a .stop b rfl
  have hp := h1.started ha
  cases h2
  have := h3.stopped rfl hp
  have k1 := SrvPc.room_le s1.pc
  have k2 := SrvPc.steps_le s1.pc
  simp only at this
  omega

/-- A server that is stopped while it serves a connection accepts no more. -/
theorem C62_busy_partial {a b s} (h : SrvExec .new (a ++ .stop :: b) s) (ha : ¬ ∃ n, Sequential n (a.filter SrvEvent.ofConn)) :
    ∀ l ∈ b, l.isAccepted = false := by
  obtain ⟨s1, s2, h1, h2, h3⟩ := h.split a .stop b rfl
  have hn := h1.seen
  cases h2
  have key : s1.pc ≠ .idle ∧ s1.pc.room = 0 := by
    simp only [SrvSeen] at hn
    cases hp : s1.pc <;> rw [hp] at hn
    case process => exact ⟨by simp, rfl⟩
    case closeOut => exact ⟨by simp, rfl⟩
    case closeIn => exact ⟨by simp, rfl⟩
    all_goals exact absurd ⟨_, hn⟩ ha
  have := (h3.stopped rfl key.1).2.2.1
  simp only [key.2] at this
  have hc : b.countP SrvEvent.isAccepted = 0 := by omega
  intro l hl
  rw [List.countP_eq_zero] at hc
  simpa using hc l hl

theorem SrvExec.inv {ls s} (h : SrvExec .new ls s) : (s.pc = .relisten → s.listener = none) ∧
    ((∃ e, s.pc = .returned e) ∨ s.pc = .crashed → ∃ l ∈ ls, l.isEnd = true) := by
  generalize hn : Srv.new = s0 at h
  induction h with
  | nil =>
    subst hn
    refine ⟨fun h => ?_, fun h => ?_⟩
    · cases h
    · rcases h with ⟨_, h⟩ | h <;> cases h
  | @snoc ls s2 l0 s3 h1 h2 ih =>
    refine ⟨?_, ?_⟩
    · have := ih.1
      cases h2 <;> simp_all
    · have := ih.2
      intro h
      cases h2 <;> simp_all [SrvEvent.isEnd]

/-- Until it has ended, a server that was started can always make a step; so one
that is stopped ends, unless it waits in `Process` or `Accept` for ever or the
requests of its connection never end. -/
theorem C62_progress_partial {ls s} (h : SrvExec .new ls s) (hs : .start ∈ ls) (he : ∀ l ∈ ls, l.isEnd = false) :
    ∃ l s', SrvStep s l s' ∧ (l.ofServe = true ∨ ∃ n, l = .processed n) := by
  obtain ⟨h1, h2⟩ := h.inv
  have hi := h.started hs
  have hr : ¬ ((∃ e, s.pc = .returned e) ∨ s.pc = .crashed) := fun k => by
    obtain ⟨l, hl, k⟩ := h2 k
    rw [he l hl] at k
    cases k
  cases hp : s.pc with
  | idle => exact absurd hp hi
  | listen => cases hl : s.listener with
    | none => exact ⟨_, _, .listenOk s hp hl, .inl rfl⟩
    | some l => exact ⟨_, _, .listenOpen s l hp hl, .inl rfl⟩
  | check => cases hl : s.stopped with
    | false => exact ⟨_, _, .checkGo s hp hl, .inl rfl⟩
    | true => exact ⟨_, _, .checkStop s hp hl, .inl rfl⟩
  | accept => cases hl : s.listener with
    | none => exact ⟨_, _, .acceptNil s hp hl, .inl rfl⟩
    | some l => exact ⟨_, _, .acceptOpen s l hp hl, .inl rfl⟩
  | relisten => exact ⟨_, _, .relistenOk s hp (h1 hp), .inl rfl⟩
  | recheck => cases hl : s.listener with
    | none => exact ⟨_, _, .recheckNil s hp hl, .inl rfl⟩
    | some l => exact ⟨_, _, .recheckOpen s l hp hl, .inl rfl⟩
  | take => cases hl : s.listener with
    | none => exact ⟨_, _, .takeNil s hp hl, .inl rfl⟩
    | some l => exact ⟨_, _, .take s l hp hl, .inl rfl⟩
  | wait l => exact ⟨_, _, .acceptErr s l hp, .inl rfl⟩
  | process n i o => exact ⟨_, _, .processEnd s n i o hp, .inr ⟨n, rfl⟩⟩
  | closeOut n i o p => cases o with
    | true => exact ⟨_, _, .closeOut s n i p hp, .inl rfl⟩
    | false => exact ⟨_, _, .closeOutNil s n i p hp, .inl rfl⟩
  | closeIn n i p =>
    cases i <;> cases p
    · exact ⟨_, _, .closeInNil s n hp, .inl rfl⟩
    · exact ⟨_, _, .panic s n hp, .inl rfl⟩
    · exact ⟨_, _, .closeIn s n hp, .inl rfl⟩
    · exact ⟨_, _, .closeInPanic s n hp, .inl rfl⟩
  | returned e => exact absurd (.inl ⟨e, hp⟩) hr
  | crashed => exact absurd (.inr hp) hr

/-- The hypotheses of the theorems above are met: a server is stopped while it serves
a connection, finishes it and returns. -/
theorem stopped_while_busy : ∃ s, SrvExec .new ([.start, .serve, .serve, .serve, .serve, .accepted 0 true true, .processed 0] ++ .stop ::
    [.processed 0, .closedOut 0, .closedIn 0, .returned false]) s :=
  ⟨_, .cons (.start _ rfl) <| .cons (.listenOk _ rfl rfl) <| .cons (.checkGo _ rfl rfl) <| .cons (.acceptOpen _ 0 rfl rfl) <|
    .cons (.take _ 0 rfl rfl) <| .cons (.accepted _ 0 true true rfl (by decide)) <|
    .cons (.processOn _ 0 true true false rfl (by decide)) <| .cons (.stop _ rfl) <| .cons (.processEnd _ 0 true true rfl) <|
    .cons (.closeOut _ 0 true false rfl) <| .cons (.closeIn _ 0 rfl) <| .cons (.checkStop _ rfl rfl) <| .nil _⟩

/-- That connection is not finished when the server is stopped. -/
example : ¬ ∃ n, Sequential n (List.filter SrvEvent.ofConn
    [.start, .serve, .serve, .serve, .serve, .accepted 0 true true, .processed 0]) := by
  rintro ⟨n, h⟩
  generalize e : List.filter SrvEvent.ofConn [.start, .serve, .serve, .serve, .serve, .accepted 0 true true, .processed 0] = tr at h
  have e' : tr = [.accepted 0 true true, .processed 0] := e.symm
  cases h with
  | nil => cases e'
  | snoc i o k h =>
    have sub : ∀ l ∈ oneConnection _ i o (k + 1), l ∈ [SrvEvent.accepted 0 true true, .processed 0] := fun l hl =>
      e' ▸ List.mem_append_right _ hl
    have h1 := sub (.accepted _ i o) (by simp [oneConnection]; rfl)
    simp only [List.mem_cons, SrvEvent.accepted.injEq, reduceCtorEq, List.not_mem_nil, or_self, or_false] at h1
    obtain ⟨rfl, rfl, rfl⟩ := h1
    have h2 := sub (.closedIn 0) (by simp [oneConnection])
    simp at h2

end Thrift
