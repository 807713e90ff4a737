import Verif.Spec.NonblockingServer
/-!
# The non-blocking server (C115 to C119)
-/

namespace Thrift

theorem NbExec.trans {s ls s' ls' s''} (h1 : NbExec s ls s') (h2 : NbExec s' ls' s'') : NbExec s (ls ++ ls') s'' := by
  induction h2 with
  | nil => simpa using h1
  | snoc _ h ih => rw [← List.append_assoc]; exact .snoc ih h

theorem NbExec.cons {s l s' ls s''} (h1 : NbStep s l s') (h2 : NbExec s' ls s'') : NbExec s (l :: ls) s'' :=
  NbExec.trans (.snoc (.nil _) h1) h2

/-- Executions can be cut anywhere. -/
theorem NbExec.split {s ls s'} (h : NbExec s ls s') : ∀ a l b, ls = a ++ l :: b →
    ∃ s1 s2, NbExec s a s1 ∧ NbStep s1 l s2 ∧ NbExec s2 b s' := by
  induction h with
  | nil => intro a l b e; simp at e
  | @snoc ls s2 l0 s3 h1 h2 ih =>
    intro a l b e
    rcases List.eq_nil_or_concat b with rfl | ⟨b, x, rfl⟩
    · have := List.append_inj' e rfl
      obtain ⟨rfl, e⟩ := this
      obtain rfl : l0 = l := by simpa using e
      exact ⟨_, _, h1, h2, .nil _⟩
    · have e' : ls ++ [l0] = (a ++ l :: b) ++ [x] := by simpa using e
      obtain ⟨e1, e2⟩ := List.append_inj' e' rfl
      obtain rfl : l0 = x := by simpa using e2
      obtain ⟨t1, t2, k1, k2, k3⟩ := ih a l b e1
      exact ⟨t1, t2, k1, k2, by simpa using NbExec.snoc k3 h2⟩

/-! ## C115: a connection that hangs -/

/-- In the course of a panic. -/
def ConnPc.panicking : ConnPc → Bool
  | .closeOut _ _ p | .closeIn _ p | .leave p => p
  | _ => false

theorem ConnStep.work {st n c e c'} (h : ConnStep st n c e c') :
    (e.work = some n ∨ e = .crashed ∧ c.panicking = true) ∧ (e ≠ .panicked n → c'.panicking = true → c.panicking = true) := by
  induction h <;> simp_all [NbEvent.work, ConnPc.panicking]

/-- What all connections that have not panicked are like. -/
theorem NbExec.calm {g ls s} (h : NbExec (.new g) ls s) (n : Nat) (hp : .panicked n ∉ ls) :
    ∀ (hn : n < s.conns.length), s.conns[n].panicking = false := by
  generalize hg : Nb.new g = s0 at h
  induction h with
  | nil => subst hg; intro hn; simp [Nb.new] at hn
  | snoc _ h ih =>
    have ih := ih (fun k => hp (by simp [k]))
    cases h <;> try exact ih
    case accepted l _ _ _ =>
      intro hn
      rw [List.getElem_append]
      split
      · exact ih _
      · simp [ConnPc.panicking]
    case conn m hm c _ hs =>
      intro hn
      rw [List.getElem_set]
      split
      case isTrue e =>
        subst e
        have h1 := hs.work.2 (by rintro rfl; simp at hp)
        have h2 := ih hm
        rw [h2] at h1
        cases hc : c.panicking
        · rfl
        · exact absurd (h1 hc) (by simp)
      case isFalse => exact ih (by simpa using hn)

/-- If all work on one connection is put off forever, everything else can happen all
the same: the other connections, `Serve` and `Stop` do not wait for it. -/
theorem C115_hanging_connection {g ls s} (h : NbExec (.new g) ls s) (n : Nat) (hp : .panicked n ∉ ls) :
    ∃ s', NbExec (.new g) (without n ls) s' := by
  have key : NbExec (.new g) (without n ls) { s with conns := s.conns.set n .fresh } := by
    generalize hg : Nb.new g = s0 at h ⊢
    induction h with
    | nil => subst hg; exact .nil _
    | @snoc ls s1 l s2 h' h ih =>
      have hp' : .panicked n ∉ ls := fun k => hp (by simp [k])
      have ih := ih hp'
      have hc := NbExec.calm (hg ▸ h') n hp'
      have other : ∀ {l s s'}, l.work ≠ some n → NbExec s0 (without n ls) s → NbStep s l s' → NbExec s0 (without n (ls ++ [l])) s' := by
        intro l s s' hw h1 h2
        rw [without, List.filter_append, List.filter_cons, if_pos (by simpa using hw)]
        exact .snoc h1 h2
      cases h
      case conn m hm c hd hs =>
        rcases hs.work.1 with hw | ⟨rfl, hw⟩
        · have hl : l ≠ .crashed := by rintro rfl; simp [NbEvent.work] at hw
          by_cases e : m = n
          · subst e
            rw [without, List.filter_append, List.filter_cons, if_neg (by simpa using hw), List.filter_nil, List.append_nil]
            simpa [hl, hd, without] using ih
          · refine other (by rw [hw]; simpa using e) ih ?_
            rw [List.set_comm _ _ e]
            refine NbStep.conn _ m _ (by simpa using hm) c hd ?_
            simp only [List.getElem_set, if_neg (Ne.symm e)]
            exact hs
        · have e : m ≠ n := by rintro rfl; rw [hc hm] at hw; cases hw
          refine other (by simp [NbEvent.work]) ih ?_
          rw [List.set_comm _ _ e]
          refine NbStep.conn _ m _ (by simpa using hm) c hd ?_
          simp only [List.getElem_set, if_neg (Ne.symm e)]
          exact hs
      case accepted l hd hpc hl =>
        refine other (by simp [NbEvent.work]) ih ?_
        have := NbStep.accepted { s1 with conns := s1.conns.set n .fresh } l hd hpc hl
        simp only [List.length_set] at this
        have e : (s1.conns ++ [ConnPc.fresh]).set n .fresh = s1.conns.set n .fresh ++ [.fresh] := by
          rw [List.set_append]
          split
          · rfl
          · rw [List.set_eq_of_length_le (l := s1.conns) (by omega)]
            cases n - s1.conns.length <;> simp
        rw [e]
        exact this
      all_goals refine other (by simp [NbEvent.work]) ih ?_
      case start h1 h2 => exact .start _ h1 h2
      case listenOpen h1 h2 h3 => exact .listenOpen _ _ h1 h2 h3
      case listenNil h1 h2 h3 => exact .listenNil _ h1 h2 h3
      case bindOk h1 h2 => exact .bindOk _ h1 h2
      case bindErr h1 h2 => exact .bindErr _ h1 h2
      case checkGo h1 h2 h3 => exact .checkGo _ h1 h2 h3
      case checkStop h1 h2 h3 => exact .checkStop _ h1 h2 h3
      case acceptOpen h1 h2 h3 => exact .acceptOpen _ _ h1 h2 h3
      case acceptNil h1 h2 h3 => exact .acceptNil _ h1 h2 h3
      case take h1 h2 h3 => exact .take _ _ h1 h2 h3
      case takeNil h1 h2 h3 => exact .takeNil _ h1 h2 h3
      case acceptErr h1 h2 => exact .acceptErr _ _ h1 h2
      case stop h1 h2 => exact .stop _ h1 h2
      case stopOpen h1 h2 h3 => exact .stopOpen _ _ h1 h2 h3
      case stopNil h1 h2 h3 => exact .stopNil _ h1 h2 h3
      case stopClose h1 h2 => exact .stopClose _ _ h1 h2
      case stopCloseErr h1 h2 => exact .stopCloseErr _ _ h1 h2
      case stopClear h1 h2 => exact .stopClear _ h1 h2
      case stopReturn h1 h2 => exact .stopReturn _ h1 h2
  exact ⟨_, key⟩

/-- The hypotheses are met: two connections, of which the first is served to its end
before the second is accepted. -/
theorem two_connections : ∃ s, NbExec (.new false) [.start, .serve, .serve, .serve, .serve, .serve, .accepted 0, .made 0 true true,
    .processed 0, .closedOut 0, .closedIn 0, .left 0, .serve, .serve, .serve, .accepted 1, .made 1 true true, .processed 1] s :=
  ⟨_, .cons (.start _ rfl (.inl rfl)) <| .cons (.listenNil _ rfl rfl rfl) <| .cons (.bindOk _ rfl rfl) <|
    .cons (.checkGo _ rfl rfl rfl) <| .cons (.acceptOpen _ 0 rfl rfl rfl) <| .cons (.take _ 0 rfl rfl rfl) <|
    .cons (.accepted _ 0 rfl rfl (by simp [Nb.new])) <| .cons (.conn _ 0 _ (by decide) _ rfl (.made true true)) <|
    .cons (.conn _ 0 _ (by decide) _ rfl (.processEnd true true)) <| .cons (.conn _ 0 _ (by decide) _ rfl (.closeOut true false)) <|
    .cons (.conn _ 0 _ (by decide) _ rfl (.closeIn false)) <| .cons (.conn _ 0 _ (by decide) _ rfl .leave) <|
    .cons (.checkGo _ rfl rfl rfl) <| .cons (.acceptOpen _ 0 rfl rfl rfl) <| .cons (.take _ 0 rfl rfl rfl) <|
    .cons (.accepted _ 0 rfl rfl (by simp [Nb.new])) <| .cons (.conn _ 1 _ (by decide) _ rfl (.made true true)) <|
    .cons (.conn _ 1 _ (by decide) _ rfl (.processOn true true false (by decide))) <| .nil _⟩

/-- So the second connection is accepted and served while the first one hangs. -/
example : ∃ s, NbExec (.new false) [.start, .serve, .serve, .serve, .serve, .serve, .accepted 0, .serve, .serve, .serve, .accepted 1,
    .made 1 true true, .processed 1] s := by
  obtain ⟨s, h⟩ := two_connections
  exact C115_hanging_connection h 0 (by decide)

/-! ## C116: the life of a connection -/

/-- What was seen of connection `n` up to its last request. -/
def bodyOf (n : Nat) (i o p : Bool) (k : Nat) : List NbEvent :=
  [.accepted n, .made n i o] ++ if p then List.replicate k (.processed n) ++ [.panicked n] else List.replicate (k + 1) (.processed n)

/-- What was seen of connection `n`. -/
def LifeSeen (n : Nat) (dead : Bool) (tr : List NbEvent) : Option ConnPc → Prop
  | none => tr = []
  | some .fresh => tr = [.accepted n]
  | some (.process i o) => ∃ k, tr = [.accepted n, .made n i o] ++ List.replicate k (.processed n)
  | some (.closeOut i o p) => ∃ k, tr = bodyOf n i o p k
  | some (.closeIn i p) => ∃ o k, tr = bodyOf n i o p k ++ if o then [.closedOut n] else []
  | some (.leave p) => ∃ i o k, tr = bodyOf n i o p k ++ (if o then [.closedOut n] else []) ++ if i then [.closedIn n] else []
  | some .done => (∃ i o k, tr = fullLife n i o k) ∨ dead = true ∧ ∃ i o k, tr = brokenLife n i o k

theorem LifeSeen.step {st n c e c' tr} (hs : ConnStep st n c e c') (h : LifeSeen n false tr (some c)) :
    LifeSeen n (decide (e = .crashed)) (tr ++ [e].filter (NbEvent.about n)) (some c') := by
  induction hs generalizing tr with
  | made i o => simp only [LifeSeen] at h ⊢; subst h; exact ⟨0, by simp [NbEvent.about, NbEvent.work]⟩
  | processOn i o err => 
    obtain ⟨k, rfl⟩ := h
    exact ⟨k + 1, by simp [NbEvent.about, NbEvent.work, List.replicate_succ']⟩
  | processErr i o | processEnd i o =>
    obtain ⟨k, rfl⟩ := h
    exact ⟨k, by simp [NbEvent.about, NbEvent.work, bodyOf, List.replicate_succ']⟩
  | processPanic i o =>
    obtain ⟨k, rfl⟩ := h
    exact ⟨k, by simp [NbEvent.about, NbEvent.work, bodyOf]⟩
  | closeOut i p =>
    obtain ⟨k, rfl⟩ := h
    exact ⟨true, k, by simp [NbEvent.about, NbEvent.work]⟩
  | closeOutNil i p e c _ ih =>
    obtain ⟨k, rfl⟩ := h
    exact ih ⟨false, k, by simp⟩
  | closeIn p =>
    obtain ⟨o, k, rfl⟩ := h
    exact ⟨true, o, k, by simp [NbEvent.about, NbEvent.work]⟩
  | closeInNil p e c _ ih =>
    obtain ⟨o, k, rfl⟩ := h
    exact ih ⟨false, o, k, by simp⟩
  | leave =>
    obtain ⟨i, o, k, rfl⟩ := h
    exact .inl ⟨i, o, k, by simp [NbEvent.about, NbEvent.work, bodyOf, fullLife]⟩
  | crash =>
    obtain ⟨i, o, k, rfl⟩ := h
    exact .inr ⟨rfl, i, o, k, by simp [NbEvent.about, NbEvent.work, bodyOf, brokenLife]⟩

theorem LifeSeen.dead {n d tr c} (h : LifeSeen n false tr c) : LifeSeen n d tr c := by
  cases c with
  | none => exact h
  | some c =>
    cases c
    case done => exact .inl (h.resolve_right (by simp))
    all_goals exact h

theorem ConnStep.about {st m c e c' n} (h : ConnStep st m c e c') (hn : m ≠ n) : e.about n = false := by
  induction h <;> simp_all [NbEvent.about, NbEvent.work]

theorem NbExec.life {g ls s} (h : NbExec (.new g) ls s) (n : Nat) : LifeSeen n s.dead (ls.filter (NbEvent.about n)) s.conns[n]? := by
  generalize hg : Nb.new g = s0 at h
  induction h with
  | nil => subst hg; simp [Nb.new, LifeSeen]
  | @snoc ls s1 l s2 _ h ih =>
    rw [List.filter_append]
    have skip : l.about n = false → ls.filter (NbEvent.about n) ++ [l].filter (NbEvent.about n) = ls.filter (NbEvent.about n) := by
      intro h; simp [h]
    cases h
    case conn m hm c hd hs =>
      rw [hd] at ih
      by_cases e : m = n
      · subst e
        rw [List.getElem?_eq_getElem hm] at ih
        simp only [List.getElem?_set_self hm]
        exact ih.step hs
      · rw [skip (hs.about e)]
        simp only [List.getElem?_set_ne e]
        exact ih.dead
    case accepted l hd hpc hl =>
      rw [hd] at ih
      simp only [hd]
      by_cases e : s1.conns.length = n
      · subst e
        rw [List.getElem?_eq_none (Nat.le_refl _)] at ih
        simp only [LifeSeen] at ih
        rw [ih]
        simp [LifeSeen, NbEvent.about]
      · rw [skip (by simpa [NbEvent.about, NbEvent.work] using e)]
        rw [List.getElem?_append]
        split
        · exact ih
        · rw [List.getElem?_eq_none (by simp; omega)]
          rw [List.getElem?_eq_none (by omega)] at ih
          exact ih
    case takeNil hd _ _ => rw [skip (by simp [NbEvent.about, NbEvent.work])]; rw [hd] at ih; exact ih.dead
    all_goals (rw [skip (by simp [NbEvent.about, NbEvent.work])]; exact ih)

theorem bodyOf_true_prefix (n i o k) : bodyOf n i o true k ++ (if o then [.closedOut n] else []) ++ (if i then [.closedIn n] else []) =
    brokenLife n i o k := by simp [bodyOf, brokenLife]

theorem bodyOf_false_prefix (n i o k) : bodyOf n i o false k ++ (if o then [.closedOut n] else []) ++
    (if i then [.closedIn n] else []) ++ [.left n] = fullLife n i o k := by simp [bodyOf, fullLife]

/-- Whatever the processor does and however the goroutines are scheduled, what is
seen of a connection is an initial part of a life in the right order; a connection
that is through has its transports closed, each once; and a connection that is not
through can go on whatever the others do. -/
theorem C116_connection_life {g ls s} (h : NbExec (.new g) ls s) (n : Nat) :
    (∃ i o k, ls.filter (NbEvent.about n) <+: fullLife n i o k ∨ ls.filter (NbEvent.about n) <+: brokenLife n i o k) ∧
    (.left n ∈ ls → ∃ i o k, ls.filter (NbEvent.about n) = fullLife n i o k) ∧
    (.accepted n ∈ ls → .left n ∉ ls → s.dead = false → ∃ e s', NbStep s e s' ∧ (e.about n = true ∨ e = .crashed)) := by
  have hl := h.life n
  generalize ht : ls.filter (NbEvent.about n) = tr at hl ⊢
  have mem : ∀ e, e.about n = true → (e ∈ ls ↔ e ∈ tr) := by intro e he; rw [← ht]; simp [he]
  rw [mem (.left n) (by simp [NbEvent.about, NbEvent.work]), mem (.accepted n) (by simp [NbEvent.about])]
  have go : ∀ c, s.conns[n]? = some c → s.dead = false → (∀ st, ∃ e c', ConnStep st n c e c') →
      ∃ e s', NbStep s e s' ∧ (e.about n = true ∨ e = .crashed) := by
    intro c hc hd hs
    obtain ⟨hn, rfl⟩ := List.getElem?_eq_some_iff.mp hc
    obtain ⟨e, c', h'⟩ := hs s.stopped
    refine ⟨e, _, .conn s n e hn c' hd h', ?_⟩
    rcases h'.work.1 with k | k
    · left; simp [NbEvent.about, k]
    · exact .inr k.1
  have leaving : ∀ st p, ∃ e c', ConnStep st n (.leave p) e c' := by
    intro st p; cases p
    · exact ⟨_, _, .leave⟩
    · exact ⟨_, _, .crash⟩
  have closing : ∀ st i p, ∃ e c', ConnStep st n (.closeIn i p) e c' := by
    intro st i p; cases i
    · obtain ⟨e, c, k⟩ := leaving st p; exact ⟨e, c, .closeInNil _ _ _ k⟩
    · exact ⟨_, _, .closeIn p⟩
  rcases hc : s.conns[n]? with _ | c
  · rw [hc] at hl
    simp only [LifeSeen] at hl
    subst hl
    exact ⟨⟨true, true, 0, .inl (List.nil_prefix)⟩, by simp, by simp⟩
  · rw [hc] at hl
    cases c with
    | fresh =>
      simp only [LifeSeen] at hl
      subst hl
      exact ⟨⟨true, true, 0, .inl ⟨_, by simp [fullLife]; rfl⟩⟩, by simp, fun _ _ hd => go _ hc hd fun _ => ⟨_, _, .made true true⟩⟩
    | process i o =>
      obtain ⟨k, rfl⟩ := hl
      refine ⟨⟨i, o, k, .inr ?_⟩, by simp, fun _ _ hd => go _ hc hd fun _ => ⟨_, _, .processEnd i o⟩⟩
      simp only [brokenLife]
      rw [List.append_assoc, List.append_assoc]
      exact List.prefix_append _ _
    | closeOut i o p =>
      obtain ⟨k, rfl⟩ := hl
      refine ⟨⟨i, o, k, ?_⟩, ?_, fun _ _ hd => go _ hc hd fun st => ?_⟩
      · cases p
        · left; rw [← bodyOf_false_prefix, List.append_assoc, List.append_assoc]; exact List.prefix_append _ _
        · right; rw [← bodyOf_true_prefix, List.append_assoc]; exact List.prefix_append _ _
      · intro hm; exfalso; cases p <;> simp [bodyOf] at hm
      · cases o
        · obtain ⟨e, c, k⟩ := closing st i p; exact ⟨e, c, .closeOutNil _ _ _ _ k⟩
        · exact ⟨_, _, .closeOut i p⟩
    | closeIn i p =>
      obtain ⟨o, k, rfl⟩ := hl
      refine ⟨⟨i, o, k, ?_⟩, ?_, fun _ _ hd => go _ hc hd fun st => closing st i p⟩
      · cases p
        · left; rw [← bodyOf_false_prefix, List.append_assoc (_ ++ _)]; exact List.prefix_append _ _
        · right; rw [← bodyOf_true_prefix]; exact List.prefix_append _ _
      · intro hm; exfalso; cases p <;> cases o <;> simp [bodyOf] at hm
    | leave p =>
      obtain ⟨i, o, k, rfl⟩ := hl
      refine ⟨⟨i, o, k, ?_⟩, ?_, fun _ _ hd => go _ hc hd fun st => leaving st p⟩
      · cases p
        · left; rw [← bodyOf_false_prefix]; exact List.prefix_append _ _
        · right; rw [bodyOf_true_prefix]; exact List.prefix_refl _
      · intro hm; exfalso; cases p <;> cases o <;> cases i <;> simp [bodyOf] at hm
    | done =>
      rcases hl with ⟨i, o, k, rfl⟩ | ⟨hd, i, o, k, rfl⟩
      · exact ⟨⟨i, o, k, .inl (List.prefix_refl _)⟩, fun _ => ⟨i, o, k, rfl⟩, fun _ k => absurd (by simp [fullLife]) k⟩
      · refine ⟨⟨i, o, k, .inr (List.prefix_refl _)⟩, fun hm => ?_, fun _ _ k => by rw [hd] at k; cases k⟩
        exfalso
        cases o <;> cases i <;> simp [brokenLife] at hm

example : ∃ ls s, NbExec (.new false) ls s ∧ .left 0 ∈ ls ∧ .accepted 1 ∈ ls ∧ .left 1 ∉ ls :=
  let ⟨s, h⟩ := two_connections
  ⟨_, s, h, by decide, by decide, by decide⟩

/-! ## C117: panics -/

/-- The server survives what its processors do and when it is stopped. -/
def C117_statement : Prop := ∀ g ls s, NbExec (.new g) ls s → .crashed ∉ ls

/-- A panic while serving one of two connections ends the program; the other one is
never closed. -/
theorem C117_violated : ¬ C117_statement := by
  intro h
  have e : NbExec (.new false) [.start, .serve, .serve, .serve, .serve, .serve, .accepted 0, .serve, .serve, .serve, .accepted 1,
      .made 1 true true, .made 0 true true, .panicked 0, .closedOut 0, .closedIn 0, .crashed]
      ⟨false, .check, .idle, some 0, [], 1, [.done, .process true true], true⟩ :=
    .cons (.start _ rfl (.inl rfl)) <| .cons (.listenNil _ rfl rfl rfl) <| .cons (.bindOk _ rfl rfl) <|
    .cons (.checkGo _ rfl rfl rfl) <| .cons (.acceptOpen _ 0 rfl rfl rfl) <| .cons (.take _ 0 rfl rfl rfl) <|
    .cons (.accepted _ 0 rfl rfl (by simp [Nb.new])) <|
    .cons (.checkGo _ rfl rfl rfl) <| .cons (.acceptOpen _ 0 rfl rfl rfl) <| .cons (.take _ 0 rfl rfl rfl) <|
    .cons (.accepted _ 0 rfl rfl (by simp [Nb.new])) <|
    .cons (.conn _ 1 _ (by decide) _ rfl (.made true true)) <| .cons (.conn _ 0 _ (by decide) _ rfl (.made true true)) <|
    .cons (.conn _ 0 _ (by decide) _ rfl (.processPanic true true)) <| .cons (.conn _ 0 _ (by decide) _ rfl (.closeOut true true)) <|
    .cons (.conn _ 0 _ (by decide) _ rfl (.closeIn true)) <| .cons (.conn _ 0 _ (by decide) _ rfl .crash) <| .nil _
  exact h _ _ _ e (by decide)

/-- Without any connection: `Stop` runs between the two looks that `Accept` takes at
the listener. -/
theorem C117_race_violated : ¬ ∀ g ls s, NbExec (.new g) ls s → (∀ l ∈ ls, l.isAccepted = false) → .crashed ∉ ls := by
  intro h
  have e : NbExec (.new false) [.start, .serve, .serve, .serve, .serve, .stop, .stopping, .stopping, .stopping, .crashed]
      ⟨true, .take, .done, none, [0], 1, [], true⟩ :=
    .cons (.start _ rfl (.inl rfl)) <| .cons (.listenNil _ rfl rfl rfl) <| .cons (.bindOk _ rfl rfl) <|
    .cons (.checkGo _ rfl rfl rfl) <| .cons (.acceptOpen _ 0 rfl rfl rfl) <| .cons (.stop _ rfl rfl) <| .cons (.stopOpen _ 0 rfl rfl rfl) <|
    .cons (.stopClose _ 0 rfl rfl) <| .cons (.stopClear _ rfl rfl) <| .cons (.takeNil _ rfl rfl rfl) <| .nil _
  exact h _ _ _ e (by decide) (by decide)

/-- As long as `Stop` is not called, `Serve` keeps its listener. -/
theorem NbExec.unstopped {g ls s} (h : NbExec (.new g) ls s) (hs : .stop ∉ ls) :
    s.stop = .idle ∧ (s.pc = .check ∨ s.pc = .accept ∨ s.pc = .take → s.listener ≠ none) ∧ ∀ l, s.pc = .wait l → s.listener ≠ none := by
  generalize hg : Nb.new g = s0 at h
  induction h with
  | nil => subst hg; simp [Nb.new]
  | snoc _ h ih =>
    have ih := ih (fun k => hs (by simp [k]))
    cases h <;> simp_all

/-- There are no other ways to end the program: some processor panics, or `Stop` is
called. -/
theorem C117_partial {g ls s} (h : NbExec (.new g) ls s) (hc : .crashed ∈ ls) : (∃ n, .panicked n ∈ ls) ∨ .stop ∈ ls := by
  by_cases hs : .stop ∈ ls
  · exact .inr hs
  · left
    obtain ⟨a, b, rfl⟩ := List.append_of_mem hc
    obtain ⟨s1, s2, h1, h2, -⟩ := h.split a _ b rfl
    have hu := h1.unstopped (fun k => hs (by simp [k]))
    cases h2
    case takeNil hd hp hn => exact absurd hn (hu.2.1 (.inr (.inr hp)))
    case conn n hn c hd k =>
      refine ⟨n, Classical.byContradiction fun hp => ?_⟩
      have := h1.calm n (fun k => hp (by simp [k])) hn
      rcases k.work.1 with k | k
      · simp [NbEvent.work] at k
      · rw [this] at k; cases k.2

example : ∃ g ls s, NbExec (.new g) ls s ∧ .crashed ∈ ls ∧ .stop ∉ ls :=
  ⟨false, [.start, .serve, .serve, .serve, .serve, .serve, .accepted 0, .made 0 true true, .panicked 0, .closedOut 0, .closedIn 0, .crashed], _,
    .cons (.start _ rfl (.inl rfl)) <| .cons (.listenNil _ rfl rfl rfl) <| .cons (.bindOk _ rfl rfl) <|
    .cons (.checkGo _ rfl rfl rfl) <| .cons (.acceptOpen _ 0 rfl rfl rfl) <| .cons (.take _ 0 rfl rfl rfl) <|
    .cons (.accepted _ 0 rfl rfl (by simp [Nb.new])) <| .cons (.conn _ 0 _ (by decide) _ rfl (.made true true)) <|
    .cons (.conn _ 0 _ (by decide) _ rfl (.processPanic true true)) <| .cons (.conn _ 0 _ (by decide) _ rfl (.closeOut true true)) <|
    .cons (.conn _ 0 _ (by decide) _ rfl (.closeIn true)) <| .cons (.conn _ 0 _ (by decide) _ rfl .crash) <| .nil _, by decide, by decide⟩

/-! ## C118: stopping -/

/-- Once `Stop` has returned, a server that was running when it was called accepts
nothing, and when `Serve` has returned too no listener is left open. -/
def C118_statement : Prop := ∀ g a1 a2 b s, NbExec (.new g) (a1 ++ .stop :: a2 ++ .stopReturned :: b) s → .start ∈ a1 →
  .start ∉ a2 → .start ∉ b → .stopReturned ∉ a2 →
  (∀ l ∈ b, l.isAccepted = false) ∧ ((∃ e, s.pc = .returned e) → ∀ l, s.listener = some l → l ∈ s.closed)

/-- `Stop` runs before `Serve` has made its listener; nobody closes that one. -/
theorem C118_violated : ¬ C118_statement := by
  intro h
  have e : NbExec (.new false) ([.start] ++ .stop :: [.stopping] ++ .stopReturned :: [.serve, .serve, .returned none])
      ⟨true, .returned none, .idle, some 0, [], 1, [], false⟩ :=
    .cons (.start _ rfl (.inl rfl)) <| .cons (.stop _ rfl rfl) <| .cons (.stopNil _ rfl rfl rfl) <| .cons (.stopReturn _ rfl rfl) <|
    .cons (.listenNil _ rfl rfl rfl) <| .cons (.bindOk _ rfl rfl) <| .cons (.checkStop _ rfl rfl rfl) <| .nil _
  have := (h _ _ _ _ _ e (by decide) (by decide) (by decide) (by decide)).2 ⟨_, rfl⟩ 0 rfl
  simp at this

/-- The listener cannot be closed, and `Stop` does not tell. -/
theorem C118_close_violated : ¬ ∀ g a1 a2 b s, NbExec (.new g) (a1 ++ .stop :: a2 ++ .stopReturned :: b) s → .start ∈ a1 →
    .start ∉ a2 → .start ∉ b → .stopReturned ∉ a2 → ∀ l ∈ b, l.isAccepted = false := by
  intro h
  have e : NbExec (.new false) ([.start, .serve, .serve, .serve, .serve, .serve] ++ .stop :: [.stopping, .stopFailed] ++
      .stopReturned :: [.accepted 0]) ⟨true, .check, .idle, some 0, [], 1, [.fresh], false⟩ :=
    .cons (.start _ rfl (.inl rfl)) <| .cons (.listenNil _ rfl rfl rfl) <| .cons (.bindOk _ rfl rfl) <|
    .cons (.checkGo _ rfl rfl rfl) <| .cons (.acceptOpen _ 0 rfl rfl rfl) <| .cons (.take _ 0 rfl rfl rfl) <|
    .cons (.stop _ rfl rfl) <| .cons (.stopOpen _ 0 rfl rfl rfl) <|
    .cons (.stopCloseErr _ 0 rfl rfl) <| .cons (.stopReturn _ rfl rfl) <|
    .cons (.accepted _ 0 rfl rfl (by simp [Nb.new])) <| .nil _
  have := h _ _ _ _ _ e (by decide) (by decide) (by decide) (by decide) _ (List.mem_singleton.mpr rfl)
  cases this

/-- How the listener goes with `Serve` and `Stop`. -/
theorem NbExec.listening {g ls s} (h : NbExec (.new g) ls s) :
    (∀ l, s.pc = .wait l → s.listener = some l ∨ l ∈ s.closed) ∧ (s.pc = .bind → s.listener = none) ∧
    (∀ l, s.stop = .close l → s.listener = some l) ∧ (s.stop = .clear → ∃ l, s.listener = some l ∧ l ∈ s.closed) := by
  generalize hg : Nb.new g = s0 at h
  induction h with
  | nil => subst hg; simp [Nb.new]
  | snoc _ h ih =>
    obtain ⟨h1, h2, h3, h4⟩ := ih
    cases h
    case stopClear hd hs =>
      obtain ⟨l, k1, k2⟩ := h4 hs
      refine ⟨fun l' hl => ?_, fun _ => rfl, by simp, by simp⟩
      rcases h1 l' hl with k | k
      · rw [k1] at k; cases k; exact .inr k2
      · exact .inr k
    case stopClose l hd hs =>
      refine ⟨fun l' hl => (h1 l' hl).imp id (by simp +contextual), h2, by simp, fun _ => ⟨l, h3 l hs, by simp⟩⟩
    case bindOk hd hp =>
      have := h2 hp
      refine ⟨by simp, by simp, fun l hl => ?_, fun hl => ?_⟩
      · have := h3 l hl; simp_all
      · obtain ⟨l, k, -⟩ := h4 hl; simp_all
    all_goals simp_all

theorem NbExec.started {s ls s'} (h : NbExec s ls s') (hl : .start ∈ ls) : s'.pc ≠ .idle := by
  induction h with
  | nil => simp at hl
  | @snoc ls s2 l0 s3 h1 h2 ih =>
    rw [List.mem_append] at hl
    rcases hl with hl | hl
    · have := ih hl
      cases h2 <;> simp_all
    · simp only [List.mem_singleton] at hl
      subst hl
      cases h2
      case start => simp
      case conn c _ k => rcases k.work.1 with k | k <;> simp [NbEvent.work] at k

/-- `Stop` has done its work. -/
def Nb.Shut (s : Nb) : Prop := (s.pc = .accept ∨ s.pc = .take → s.listener = none) ∧ ∀ l, s.pc = .wait l → l ∈ s.closed

/-- `Stop` is at work or has done it. -/
def Nb.Shutting (s : Nb) : Prop :=
  s.pc ≠ .idle ∧ s.stopped = true ∧ (s.Shut ∨ s.stop = .test ∨ (∃ l, s.stop = .close l) ∨ s.stop = .clear)

theorem NbStep.shut {s l s'} (h : NbStep s l s') (hi : s.pc ≠ .idle) (hs : s.stopped = true) (hl : l ≠ .start) (hc : s.Shut) :
    s'.pc ≠ .idle ∧ s'.stopped = true ∧ s'.Shut ∧ l.isAccepted = false := by
  obtain ⟨h1, h2⟩ := hc
  cases h
  case conn m hm c _ hs' =>
    refine ⟨hi, hs, ⟨h1, h2⟩, ?_⟩
    rcases hs'.work.1 with k | ⟨rfl, -⟩
    · revert k; cases l <;> simp [NbEvent.isAccepted, NbEvent.work]
    · rfl
  case stopClose l _ _ => exact ⟨hi, hs, ⟨h1, fun l' hl => by simp [h2 l' hl]⟩, rfl⟩
  all_goals simp_all [Nb.Shut, NbEvent.isAccepted]

theorem NbExec.shut {s ls s'} (h : NbExec s ls s') (hi : s.pc ≠ .idle) (hs : s.stopped = true) (hl : .start ∉ ls) (hc : s.Shut) :
    s'.pc ≠ .idle ∧ s'.stopped = true ∧ s'.Shut ∧ ∀ l ∈ ls, l.isAccepted = false := by
  induction h with
  | nil => exact ⟨hi, hs, hc, by simp⟩
  | snoc _ h ih =>
    obtain ⟨h1, h2, h3, h4⟩ := ih (fun k => hl (by simp [k]))
    have := h.shut h1 h2 (by rintro rfl; simp at hl) h3
    refine ⟨this.1, this.2.1, this.2.2.1, fun l hm => ?_⟩
    rcases List.mem_append.mp hm with hm | hm
    · exact h4 l hm
    · rw [List.mem_singleton.mp hm]; exact this.2.2.2

theorem NbStep.shutting {g ls s l s'} (he : NbExec (.new g) ls s) (h : NbStep s l s') (hl : l ≠ .start) (hf : l ≠ .stopFailed)
    (hs : s.Shutting) : s'.Shutting := by
  obtain ⟨k1, k2, k3, k4⟩ := he.listening
  obtain ⟨hi, hst, hc⟩ := hs
  rcases hc with hc | hc
  · have := h.shut hi hst hl hc
    exact ⟨this.1, this.2.1, .inl this.2.2.1⟩
  · cases h
    case stopNil hd ht hn =>
      refine ⟨hi, hst, .inl ⟨fun _ => hn, fun l hl => ?_⟩⟩
      rcases k1 l hl with k | k
      · rw [hn] at k; cases k
      · exact k
    case stopClear hd ht =>
      refine ⟨hi, hst, .inl ⟨fun _ => rfl, fun l hl => ?_⟩⟩
      obtain ⟨l', k, k'⟩ := k4 ht
      rcases k1 l hl with k1 | k1
      · rw [k] at k1; cases k1; exact k'
      · exact k1
    case stopOpen l hd ht hn => exact ⟨hi, hst, .inr (.inr (.inl ⟨l, rfl⟩))⟩
    case stopClose l hd ht => exact ⟨hi, hst, .inr (.inr (.inr rfl))⟩
    case stopReturn hd ht => simp [ht] at hc
    case stop hd ht => simp [ht] at hc
    case stopCloseErr => exact absurd rfl hf
    case start => exact absurd rfl hl
    case checkGo h _ _ => simp_all
    case conn => exact ⟨hi, hst, .inr hc⟩
    case takeNil => exact ⟨hi, hst, .inr hc⟩
    all_goals exact ⟨by simp, hst, .inr hc⟩

theorem NbExec.shutting {g a s ls s'} (h : NbExec s ls s') (he : NbExec (.new g) a s) (hl : .start ∉ ls) (hf : .stopFailed ∉ ls)
    (hs : s.Shutting) : s'.Shutting := by
  induction h with
  | nil => exact hs
  | snoc h1 h2 ih =>
    exact NbStep.shutting (he.trans h1) h2 (by rintro rfl; simp at hl) (by rintro rfl; simp at hf)
      (ih (fun k => hl (by simp [k])) (fun k => hf (by simp [k])))

/-- If the listener can be closed, nothing is accepted once `Stop` has returned. -/
theorem C118_partial {g a1 a2 b s} (h : NbExec (.new g) (a1 ++ .stop :: a2 ++ .stopReturned :: b) s) (hs : .start ∈ a1)
    (h1 : .start ∉ a2) (h2 : .start ∉ b) (hf : .stopFailed ∉ a2) : ∀ l ∈ b, l.isAccepted = false := by
  obtain ⟨s2, s3, he, hr, hb⟩ := h.split (a1 ++ .stop :: a2) _ b rfl
  obtain ⟨t1, t2, k1, k2, k3⟩ := he.split a1 _ a2 rfl
  have hi := k1.started hs
  have key : s2.Shutting := k3.shutting (.snoc k1 k2) h1 hf (by
    cases k2
    case stop => exact ⟨hi, rfl, .inr (.inl rfl)⟩
    case conn k => rcases k.work.1 with k | k <;> simp [NbEvent.work] at k)
  have done : s2.Shut ∧ s3.Shutting := by
    obtain ⟨ki, ks, kc⟩ := key
    cases hr
    case conn m hm c hd k => rcases k.work.1 with k | k <;> simp [NbEvent.work] at k
    case stopReturn hd ht =>
      have kc : s2.Shut := by simpa [ht] using kc
      exact ⟨kc, ki, ks, .inl kc⟩
  obtain ⟨hc, ki, ks, -⟩ := done
  have hc3 : s3.Shut := (hr.shut key.1 key.2.1 (by simp) hc).2.2.1
  exact (hb.shut ki ks h2 hc3).2.2.2

/-- How many steps a stopped `Serve` can still make. -/
def NbPc.steps : NbPc → Nat
  | .idle => 0 | .listen => 3 | .bind => 2 | .check => 1 | .accept => 4 | .take => 3 | .wait _ => 2 | .returned _ => 0

def NbPc.room : NbPc → Nat
  | .accept | .take | .wait _ => 1
  | _ => 0

theorem NbStep.stopped {s l s'} (h : NbStep s l s') (hs : s.stopped = true) (hp : s.pc ≠ .idle) (hl : l ≠ .start) :
    s'.stopped = true ∧ s'.pc ≠ .idle ∧ [l].countP NbEvent.isAccepted + s'.pc.room ≤ s.pc.room ∧
      [l].countP NbEvent.ofServe + s'.pc.steps ≤ s.pc.steps := by
  cases h
  case start => exact absurd rfl hl
  case checkGo h' => rw [hs] at h'; cases h'
  case conn m hm c _ k =>
    refine ⟨hs, hp, ?_⟩
    rcases k.work.1 with k | ⟨rfl, -⟩
    · revert k; cases l <;> simp [NbEvent.isAccepted, NbEvent.ofServe, NbEvent.work]
    · simp [NbEvent.isAccepted, NbEvent.ofServe]
  all_goals simp_all [NbPc.room, NbPc.steps, NbEvent.isAccepted, NbEvent.ofServe]

theorem NbExec.stopped {s ls s'} (h : NbExec s ls s') (hs : s.stopped = true) (hp : s.pc ≠ .idle) (hl : .start ∉ ls) :
    s'.stopped = true ∧ s'.pc ≠ .idle ∧ ls.countP NbEvent.isAccepted + s'.pc.room ≤ s.pc.room ∧
      ls.countP NbEvent.ofServe + s'.pc.steps ≤ s.pc.steps := by
  induction h with
  | nil => simp [hs, hp]
  | snoc _ h ih =>
    obtain ⟨h1, h2, h3, h4⟩ := ih (fun k => hl (by simp [k]))
    have := h.stopped h1 h2 (by rintro rfl; simp at hl)
    rw [List.countP_append, List.countP_append]
    exact ⟨this.1, this.2.1, by omega, by omega⟩

/-- In any case a stopped server accepts at most one more connection, and `Serve`
makes at most four more steps: it does not go on for long, however many connections
are being served. -/
theorem C118_soon_partial {g a b s} (h : NbExec (.new g) (a ++ .stop :: b) s) (ha : .start ∈ a) (hb : .start ∉ b) :
    b.countP NbEvent.isAccepted ≤ 1 ∧ b.countP NbEvent.ofServe ≤ 4 := by
  obtain ⟨s1, s2, h1, h2, h3⟩ := h.split a .stop b rfl
  have hp := h1.started ha
  cases h2
  case stop =>
    have := h3.stopped rfl hp hb
    have k1 : s1.pc.room ≤ 1 := by cases s1.pc <;> simp [NbPc.room]
    have k2 : s1.pc.steps ≤ 4 := by cases s1.pc <;> simp [NbPc.steps]
    simp only at this
    omega
  case conn k => rcases k.work.1 with k | k <;> simp [NbEvent.work] at k

/-- The hypotheses are met: `Stop` closes the listener while `Serve` waits on it and
a connection is being served. -/
theorem stopped_while_serving : ∃ s, NbExec (.new false) ([.start, .serve, .serve, .serve, .serve, .serve, .accepted 0, .serve, .serve,
    .serve, .made 0 true true] ++ .stop :: [.stopping, .stopping, .stopping] ++ .stopReturned :: [.returned (some .network), .processed 0]) s :=
  ⟨_, .cons (.start _ rfl (.inl rfl)) <| .cons (.listenNil _ rfl rfl rfl) <| .cons (.bindOk _ rfl rfl) <|
    .cons (.checkGo _ rfl rfl rfl) <| .cons (.acceptOpen _ 0 rfl rfl rfl) <| .cons (.take _ 0 rfl rfl rfl) <|
    .cons (.accepted _ 0 rfl rfl (by simp [Nb.new])) <|
    .cons (.checkGo _ rfl rfl rfl) <| .cons (.acceptOpen _ 0 rfl rfl rfl) <| .cons (.take _ 0 rfl rfl rfl) <|
    .cons (.conn _ 0 _ (by decide) _ rfl (.made true true)) <|
    .cons (.stop _ rfl rfl) <| .cons (.stopOpen _ 0 rfl rfl rfl) <| .cons (.stopClose _ 0 rfl rfl) <| .cons (.stopClear _ rfl rfl) <|
    .cons (.stopReturn _ rfl rfl) <| .cons (.acceptErr _ 0 rfl rfl) <|
    .cons (.conn _ 0 _ (by decide) _ rfl (.processOn true true true (fun _ => rfl))) <| .nil _⟩

/-! ## C119: what `Serve` fails of -/

/-- If nobody calls `Stop`, `Serve` fails of nothing but the network. -/
def C119_statement : Prop := ∀ g ls s, NbExec (.new g) ls s → .stop ∉ ls → ∀ e, .returned (some e) ∈ ls → e = .network

/-- A socket that was made from a listener: `Serve` fails at once, whatever the
network does. -/
theorem C119_violated : ¬ C119_statement := by
  intro h
  have e : NbExec (.new true) [.start, .returned (some .alreadyOpen)] ⟨false, .returned (some .alreadyOpen), .idle, some 0, [], 1, [], false⟩ :=
    .cons (.start _ rfl (.inl rfl)) <| .cons (.listenOpen _ 0 rfl rfl rfl) <| .nil _
  have := h _ _ _ e (by decide) .alreadyOpen (by decide)
  cases this

/-- It cannot do anything else until it is stopped. -/
theorem given_never_accepts {ls s} (h : NbExec (.new true) ls s) (hs : .stop ∉ ls) : ∀ l ∈ ls, l.isAccepted = false := by
  have key : s.listener = some 0 ∧ s.stop = .idle ∧ s.conns = [] ∧ (s.pc = .idle ∨ s.pc = .listen ∨ ∃ e, s.pc = .returned e) ∧
      ∀ l ∈ ls, l.isAccepted = false := by
    generalize hg : Nb.new true = s0 at h
    induction h with
    | nil => subst hg; simp [Nb.new]
    | snoc _ h ih =>
      replace ih := ih (fun k => hs (by simp [k]))
      cases h
      case conn m hm c _ k => rw [ih.2.2.1] at hm; simp at hm
      all_goals simp_all [NbEvent.isAccepted]
      all_goals (rintro l (hl | rfl); (first | exact ih.2.2.2 l hl | exact ih.2.2.2.2 l hl); rfl)
  exact key.2.2.2.2

/-- One failure of the network, and every later call of `Serve` fails without it. -/
theorem C119_again_violated : ¬ ∀ ls s, NbExec (.new false) ls s → .stop ∉ ls → ∀ e, .returned (some e) ∈ ls → e = .network := by
  intro h
  have e : NbExec (.new false) [.start, .serve, .serve, .serve, .serve, .serve, .returned (some .network), .start, .returned (some .alreadyOpen)]
      ⟨false, .returned (some .alreadyOpen), .idle, some 0, [], 1, [], false⟩ :=
    .cons (.start _ rfl (.inl rfl)) <| .cons (.listenNil _ rfl rfl rfl) <| .cons (.bindOk _ rfl rfl) <|
    .cons (.checkGo _ rfl rfl rfl) <| .cons (.acceptOpen _ 0 rfl rfl rfl) <| .cons (.take _ 0 rfl rfl rfl) <|
    .cons (.acceptErr _ 0 rfl rfl) <| .cons (.start _ rfl (.inr ⟨_, rfl⟩)) <| .cons (.listenOpen _ 0 rfl rfl rfl) <| .nil _
  have := h _ _ e (by decide) .alreadyOpen (by decide)
  cases this

/-- A socket made from an address, and `Serve` called once. -/
theorem C119_partial {ls s} (h : NbExec (.new false) ls s) (hs : .stop ∉ ls) (h1 : ls.count .start ≤ 1) (e : NbErr)
    (he : .returned (some e) ∈ ls) : e = .network := by
  have key : (ls.count .start = 0 → s.pc = .idle ∧ s.listener = none ∧ s.conns = []) ∧ (s.pc = .listen → s.listener = none) ∧
      ∀ e, .returned (some e) ∈ ls → e = .network := by
    generalize hg : Nb.new false = s0 at h
    clear he
    induction h with
    | nil => subst hg; simp [Nb.new]
    | snoc h' h ih =>
      have hu := NbExec.unstopped (hg ▸ h') (fun k => hs (by simp [k]))
      replace ih := ih (fun k => hs (by simp [k])) (by rw [List.count_append] at h1; omega)
      obtain ⟨i1, i2, i3⟩ := ih
      cases h
      case start hd hp =>
        refine ⟨by simp, fun _ => ?_, by simpa using i3⟩
        exact (i1 (by rw [List.count_append, List.count_singleton_self] at h1; omega)).2.1
      case conn m hm c hd k =>
        refine ⟨fun h0 => ?_, i2, fun e hm => ?_⟩
        · have := (i1 (by rw [List.count_append] at h0; omega)).2.2
          rw [this] at hm; simp at hm
        · rcases List.mem_append.mp hm with hm | hm
          · exact i3 e hm
          · rw [← List.mem_singleton.mp hm] at k
            rcases k.work.1 with k | k <;> simp [NbEvent.work] at k
      all_goals simp_all
      all_goals (intro e hm; first | exact i3 e hm | (rcases hm with hm | hm; exact i3 e hm; exact hm))
  exact key.2.2 e he

example : ∃ ls s, NbExec (.new false) ls s ∧ .stop ∉ ls ∧ ls.count .start ≤ 1 ∧ .returned (some .network) ∈ ls :=
  ⟨[.start, .serve, .returned (some .network)], _, .cons (.start _ rfl (.inl rfl)) <| .cons (.listenNil _ rfl rfl rfl) <|
    .cons (.bindErr _ rfl rfl) <| .nil _, by decide, by decide, by decide⟩

end Thrift
