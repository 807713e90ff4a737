import Verif.Model.ServerSocket
/-!
# Properties of server sockets (C141-C145)
-/

namespace Thrift
open SrvSock

/-- The step functions of the two kinds of socket. -/
abbrev LStep (ℓ κ ν : Type) := LNet ℓ κ ν → LOp → SrvSock ℓ → ν → LAns κ × SrvSock ℓ × ν

/-! ## C141: a server socket is open between a successful open and a successful close -/

/-- Whether a socket should be open after calls with these answers: opening,
listening and accepting can open it, closing closes it. -/
def listens (o : Bool) : List (LOp × LAns κ) → Bool
  | [] => o
  | (.open, .done none _) :: r => listens true r
  | (.listen, .done none _) :: r => listens true r
  | (.close, .done none _) :: r => listens false r
  | (.interrupt, .done none _) :: r => listens false r
  | _ :: r => listens o r

/-- C141: `IsOpen` says what the answers so far say; on an open socket `Open`
reports that and changes nothing, closing a closed one succeeds and changes
nothing. -/
def C141_statement_for (step : ∀ {ℓ κ ν : Type}, LStep ℓ κ ν) : Prop :=
  ∀ (ℓ κ ν : Type) (N : LNet ℓ κ ν) (addr : Option (Bytes × Bytes)) (ops : List LOp) (n : ν),
    let r := runCalls (step N) ops (SrvSock.new addr) n
    r.2.1.isOpen = listens false r.1 ∧
    (r.2.1.isOpen = true → ∃ e, e.code = ALREADY_OPEN ∧ step N .open r.2.1 r.2.2 = (.done (some e) none, r.2)) ∧
    (r.2.1.isOpen = false → step N .close r.2.1 r.2.2 = (.done none none, r.2))

/-- C141 in full, for both kinds. -/
def C141_statement : Prop := C141_statement_for @LOp.run ∧ C141_statement_for @LOp.runNb

/-- A network where everything works. -/
def goodLNet : LNet Nat Nat Nat := ⟨fun _ _ n => (.ok n, n + 1), fun _ n => (.ok n, n + 1), fun _ n => (none, n)⟩

/-- A network where nothing can be accepted. -/
def deafLNet : LNet Nat Nat Nat :=
  ⟨fun _ _ n => (.ok n, n + 1), fun _ n => (.error ⟨.other, 0, []⟩, n), fun _ n => (none, n)⟩

/-- An `Accept` that fails has opened the socket all the same. -/
theorem C141_violated : ¬ C141_statement := fun h => by
  have := (h.1 Nat Nat Nat deafLNet (some (ascii "tcp", ascii ":1")) [.accept] 0).1
  exact absurd this (by decide +kernel)

theorem already_open (N : LNet ℓ κ ν) (s : SrvSock ℓ) (n : ν) (h : s.isOpen = true) :
    s.open N n = (.ok (some alreadyOpen), s, n) := by
  rw [SrvSock.open, if_pos h]

theorem close_closed (N : LNet ℓ κ ν) (s : SrvSock ℓ) (n : ν) (h : s.isOpen = false) :
    s.close N n = (none, s, n) := by
  obtain ⟨_ | l, a⟩ := s
  · rfl
  · exact nomatch h

/-- What a call does to `IsOpen`. -/
theorem open_step (N : LNet ℓ κ ν) (s : SrvSock ℓ) (n : ν) :
    (s.open N n).2.1.isOpen = listens s.isOpen [(.open, (LAns.ofRes (s.open N n).1 : LAns κ))] := by
  by_cases h : s.isOpen = true
  · rw [already_open N s n h]; rfl
  · rw [SrvSock.open, if_neg h]
    obtain ⟨l, _ | ⟨nw, tx⟩⟩ := s
    · rfl
    · simp only
      rcases N.listen nw tx n with ⟨_ | l, n'⟩ <;> rfl

theorem listen_step (N : LNet ℓ κ ν) (s : SrvSock ℓ) (n : ν) :
    (s.listen N n).2.1.isOpen = listens s.isOpen [(.listen, (LAns.ofRes (s.listen N n).1 : LAns κ))] := by
  obtain ⟨_ | l, _ | ⟨nw, tx⟩⟩ := s
  · rfl
  · rw [SrvSock.listen]
    simp only
    rcases N.listen (ascii "tcp") tx n with ⟨_ | l, n'⟩ <;> rfl
  · rfl
  · rfl

theorem close_step (N : LNet ℓ κ ν) (s : SrvSock ℓ) (n : ν) :
    (s.close N n).2.1.isOpen = listens s.isOpen [(.close, (.done (s.close N n).1 none : LAns κ))] := by
  obtain ⟨_ | l, a⟩ := s
  · rfl
  · rw [SrvSock.close]
    simp only
    rcases hc : N.close l n with ⟨_ | e, n'⟩
    · rfl
    · simp only
      rcases ht : transportFromOsError (some e) with _ | e'
      · rw [transportFromOsError] at ht
        split at ht
        · exact nomatch ht
        · split at ht <;> exact nomatch ht
      · rfl

theorem acceptOn_same (N : LNet ℓ κ ν) (l : ℓ) (s : SrvSock ℓ) (n : ν) : (acceptOn N l s n).2.1 = s := by
  rw [acceptOn]
  rcases N.accept l n with ⟨_ | c, n'⟩ <;> rfl

theorem nbAccept_same (N : LNet ℓ κ ν) (s : SrvSock ℓ) (n : ν) : (s.nbAccept N n).2.1 = s := by
  rw [nbAccept]
  split
  · exact acceptOn_same ..
  · rfl

theorem accept_open (N : LNet ℓ κ ν) (s : SrvSock ℓ) (n : ν) (h : s.isOpen = true) : (s.accept N n).2.1 = s := by
  obtain ⟨_ | l, a⟩ := s
  · exact nomatch h
  · exact acceptOn_same ..

theorem listens_listen (o : Bool) (a : LAns κ) : listens o [(.listen, a)] = listens o [(.open, a)] := by
  rcases a with ⟨_ | e, c⟩ | _ <;> rfl

theorem listens_interrupt (o : Bool) (a : LAns κ) : listens o [(.interrupt, a)] = listens o [(.close, a)] := by
  rcases a with ⟨_ | e, c⟩ | _ <;> rfl

theorem nb_step (N : LNet ℓ κ ν) (op : LOp) (s : SrvSock ℓ) (n : ν) :
    (op.runNb N s n).2.1.isOpen = listens s.isOpen [(op, (op.runNb N s n).1)] := by
  cases op with
  | «open» => exact open_step N s n
  | listen => exact (open_step (κ := κ) N s n).trans (listens_listen _ _).symm
  | accept =>
    show (s.nbAccept N n).2.1.isOpen = _
    rw [nbAccept_same]; rfl
  | close => exact close_step N s n
  | interrupt => exact (close_step (κ := κ) N s n).trans (listens_interrupt _ _).symm
  | read => rfl
  | write => rfl
  | flush => rfl

theorem run_step (N : LNet ℓ κ ν) (op : LOp) (s : SrvSock ℓ) (n : ν) (h : op ≠ .accept ∨ s.isOpen = true) :
    (op.run N s n).2.1.isOpen = listens s.isOpen [(op, (op.run N s n).1)] := by
  cases op with
  | «open» => exact open_step N s n
  | listen => exact listen_step N s n
  | accept =>
    have h : s.isOpen = true := h.resolve_left fun h => h rfl
    show (s.accept N n).2.1.isOpen = _
    rw [accept_open N s n h]; rfl
  | close => exact close_step N s n
  | interrupt => exact (close_step (κ := κ) N s n).trans (listens_interrupt _ _).symm
  | read => rfl
  | write => rfl
  | flush => rfl

theorem listens_cons (o : Bool) (x : LOp × LAns κ) (r : List (LOp × LAns κ)) :
    listens o (x :: r) = listens (listens o [x]) r := by
  obtain ⟨op, a⟩ := x
  cases op <;> rcases a with ⟨_ | e, c⟩ | _ <;> rfl

/-- Accepting only while open: every `Accept` in the history met an open
socket. -/
def AcceptsOpen (step : LOp → SrvSock ℓ → ν → LAns κ × SrvSock ℓ × ν) : List LOp → SrvSock ℓ → ν → Prop
  | [], _, _ => True
  | op :: ops, s, n =>
    (op = .accept → s.isOpen = true) ∧ AcceptsOpen step ops (step op s n).2.1 (step op s n).2.2

theorem nb_listens (N : LNet ℓ κ ν) (ops : List LOp) (s : SrvSock ℓ) (n : ν) :
    (runCalls (LOp.runNb N) ops s n).2.1.isOpen = listens s.isOpen (runCalls (LOp.runNb N) ops s n).1 := by
  induction ops generalizing s n with
  | nil => rfl
  | cons op ops ih =>
    show (runCalls (LOp.runNb N) ops (op.runNb N s n).2.1 (op.runNb N s n).2.2).2.1.isOpen = listens _ (_ :: _)
    rw [ih, nb_step]
    exact (listens_cons ..).symm

theorem run_listens (N : LNet ℓ κ ν) (ops : List LOp) (s : SrvSock ℓ) (n : ν)
    (h : AcceptsOpen (LOp.run N) ops s n) :
    (runCalls (LOp.run N) ops s n).2.1.isOpen = listens s.isOpen (runCalls (LOp.run N) ops s n).1 := by
  induction ops generalizing s n with
  | nil => rfl
  | cons op ops ih =>
    show (runCalls (LOp.run N) ops (op.run N s n).2.1 (op.run N s n).2.2).2.1.isOpen = listens _ (_ :: _)
    rw [ih _ _ h.2, run_step N op s n (by
      by_cases ho : op = .accept
      · exact .inr (h.1 ho)
      · exact .inl ho)]
    exact (listens_cons ..).symm

/-- C141 in full for the nonblocking server socket. -/
theorem C141_nonblocking : C141_statement_for @LOp.runNb := by
  intro ℓ κ ν N addr ops n
  refine ⟨nb_listens N ops _ n, fun h => ⟨alreadyOpen, rfl, ?_⟩, fun h => ?_⟩
  · show (LAns.ofRes (SrvSock.open N _ _).1, (SrvSock.open N _ _).2) = _
    rw [already_open N _ _ h]; rfl
  · show (LAns.done (SrvSock.close N _ _).1 none, (SrvSock.close N _ _).2) = _
    rw [close_closed N _ _ h]

/-- Holds for the blocking one if nothing is accepted while it is closed.
Missing: an `Accept` that opens the socket. -/
theorem C141_partial (N : LNet ℓ κ ν) (addr : Option (Bytes × Bytes)) (ops : List LOp) (n : ν)
    (h : AcceptsOpen (LOp.run N) ops (SrvSock.new addr) n) :
    let r := runCalls (LOp.run N) ops (SrvSock.new addr) n
    r.2.1.isOpen = listens false r.1 ∧
    (r.2.1.isOpen = true → ∃ e, e.code = ALREADY_OPEN ∧ LOp.run N .open r.2.1 r.2.2 = (.done (some e) none, r.2)) ∧
    (r.2.1.isOpen = false → LOp.run N .close r.2.1 r.2.2 = (.done none none, r.2)) := by
  refine ⟨run_listens N ops _ n h, fun h => ⟨alreadyOpen, rfl, ?_⟩, fun h => ?_⟩
  · show (LAns.ofRes (SrvSock.open N _ _).1, (SrvSock.open N _ _).2) = _
    rw [already_open N _ _ h]; rfl
  · show (LAns.done (SrvSock.close N _ _).1 none, (SrvSock.close N _ _).2) = _
    rw [close_closed N _ _ h]

example : AcceptsOpen (LOp.run goodLNet) [.listen, .accept, .close] (SrvSock.new (some (ascii "tcp", ascii ":1"))) 0 :=
  ⟨(fun h => nomatch h), fun _ => rfl, (fun h => nomatch h), trivial⟩

/-- No server socket can be read or written. -/
theorem C141_no_data (N : LNet ℓ κ ν) (op : LOp) (h : op = .read ∨ op = .write ∨ op = .flush) (s : SrvSock ℓ) (n : ν) :
    ∃ e, e.code = UNKNOWN_TRANSPORT_EXCEPTION ∧ op.run N s n = (.done (some e) none, s, n) ∧ op.runNb N s n = (.done (some e) none, s, n) :=
  ⟨notImplemented, rfl, by rcases h with rfl | rfl | rfl <;> exact ⟨rfl, rfl⟩⟩

/-! ## C142: a server socket listens on the network of its address -/

/-- A network that notes what it is asked to listen on. -/
def LNet.noted (N : LNet ℓ κ ν) : LNet ℓ κ (ν × List (Bytes × Bytes)) where
  listen a b n := let (x, m) := N.listen a b n.1; (x, m, n.2 ++ [(a, b)])
  accept l n := let (x, m) := N.accept l n.1; (x, m, n.2)
  close l n := let (x, m) := N.close l n.1; (x, m, n.2)

theorem noted_listen {N : LNet ℓ κ ν} {a b n x m} (h : N.listen a b n.1 = (x, m)) :
    N.noted.listen a b n = (x, m, n.2 ++ [(a, b)]) := by
  show ((N.listen a b n.1).1, (N.listen a b n.1).2, _) = _
  rw [h]
theorem noted_accept {N : LNet ℓ κ ν} {l n x m} (h : N.accept l n.1 = (x, m)) :
    N.noted.accept l n = (x, m, n.2) := by
  show ((N.accept l n.1).1, (N.accept l n.1).2, _) = _
  rw [h]
theorem noted_close {N : LNet ℓ κ ν} {l n x m} (h : N.close l n.1 = (x, m)) :
    N.noted.close l n = (x, m, n.2) := by
  show ((N.close l n.1).1, (N.close l n.1).2, _) = _
  rw [h]

/-- C142: whatever is called, `net.Listen` is called with the network and the
text of the address only. -/
def C142_statement_for (step : ∀ {ℓ κ ν : Type}, LStep ℓ κ ν) : Prop :=
  ∀ (ℓ κ ν : Type) (N : LNet ℓ κ ν) (addr : Bytes × Bytes) (ops : List LOp) (n : ν),
    ∀ x ∈ (runCalls (step N.noted) ops (SrvSock.new (some addr)) (n, [])).2.2.2, x = addr

def C142_statement : Prop := C142_statement_for @LOp.run ∧ C142_statement_for @LOp.runNb

theorem C142_violated : ¬ C142_statement := fun h =>
  absurd (h.1 Nat Nat Nat goodLNet (ascii "unix", ascii "/tmp/s") [.listen] 0 (ascii "tcp", ascii "/tmp/s") (.head _))
    (by decide +kernel)

/-- So does accepting without listening first. -/
theorem C142_accept_violated : ¬ C142_statement := fun h =>
  absurd (h.1 Nat Nat Nat goodLNet (ascii "unix", ascii "/tmp/s") [.accept] 0 (ascii "tcp", ascii "/tmp/s") (.head _))
    (by decide +kernel)

/-- Notes that all name the address. -/
def Named (addr : Bytes × Bytes) (x : SrvSock ℓ × ν × List (Bytes × Bytes)) : Prop :=
  x.1.addr = some addr ∧ ∀ y ∈ x.2.2, y = addr

theorem named_open {N : LNet ℓ κ ν} {addr} {s : SrvSock ℓ} {n} (h : Named addr (s, n)) :
    Named addr (s.open N.noted n).2 := by
  rw [SrvSock.open]
  split
  · exact h
  · have ha : s.addr = some addr := h.1
    rw [ha]
    rcases hx : N.listen addr.1 addr.2 n.1 with ⟨_ | l, m⟩ <;> simp only [noted_listen hx] <;> refine ⟨by first | exact ha | rfl, fun y hy => ?_⟩ <;>
      rcases List.mem_append.1 hy with hy | hy <;> first | exact h.2 y hy | exact List.mem_singleton.1 hy

theorem named_listen {N : LNet ℓ κ ν} {addr} {s : SrvSock ℓ} {n} (h : Named addr (s, n))
    (ht : addr.1 = ascii "tcp") : Named addr (s.listen N.noted n).2 := by
  rw [SrvSock.listen]
  split
  · exact h
  · have ha : s.addr = some addr := h.1
    rw [ha]
    simp only [← ht]
    rcases hx : N.listen addr.1 addr.2 n.1 with ⟨_ | l, m⟩ <;> simp only [noted_listen hx] <;> refine ⟨by first | exact ha | rfl, fun y hy => ?_⟩ <;>
      rcases List.mem_append.1 hy with hy | hy <;> first | exact h.2 y hy | exact List.mem_singleton.1 hy

theorem named_acceptOn {N : LNet ℓ κ ν} {addr} {l} {s : SrvSock ℓ} {n} (h : Named addr (s, n)) :
    Named addr (acceptOn N.noted l s n).2 := by
  rw [acceptOn]
  rcases hx : N.accept l n.1 with ⟨_ | c, m⟩ <;> simp only [noted_accept hx] <;> exact h

theorem named_close {N : LNet ℓ κ ν} {addr} {s : SrvSock ℓ} {n} (h : Named addr (s, n)) :
    Named addr (s.close N.noted n).2 := by
  rw [SrvSock.close]
  split
  · exact h
  · rename_i l _
    rcases hx : N.close l n.1 with ⟨_ | c, m⟩ <;> simp only [noted_close hx] <;> exact h

theorem named_accept {N : LNet ℓ κ ν} {addr} {s : SrvSock ℓ} {n} (h : Named addr (s, n))
    (ht : addr.1 = ascii "tcp") : Named addr (s.accept N.noted n).2 := by
  rw [SrvSock.accept]
  split
  · exact named_acceptOn h
  · have hl := named_listen (N := N) h ht
    rcases hr : SrvSock.listen N.noted s n with ⟨_ | _ | _, s', n'⟩
    all_goals rw [hr] at hl
    · rename_i r
      cases r with
      | some e => exact hl
      | none =>
        simp only
        split
        · exact named_acceptOn hl
        · exact hl
    · exact hl
    · exact hl

theorem named_nbAccept {N : LNet ℓ κ ν} {addr} {s : SrvSock ℓ} {n} (h : Named addr (s, n)) :
    Named addr (s.nbAccept N.noted n).2 := by
  rw [nbAccept]
  split
  · exact named_acceptOn h
  · exact h

theorem named_nb {N : LNet ℓ κ ν} {addr} (ops : List LOp) {s : SrvSock ℓ} {n} (h : Named addr (s, n)) :
    Named addr (runCalls (LOp.runNb N.noted) ops s n).2 := by
  induction ops generalizing s n with
  | nil => exact h
  | cons op ops ih =>
    refine ih (s := (op.runNb N.noted s n).2.1) (n := (op.runNb N.noted s n).2.2) ?_
    cases op with
    | «open» => exact named_open h
    | listen => exact named_open h
    | accept => exact named_nbAccept h
    | close => exact named_close h
    | interrupt => exact named_close h
    | read => exact h
    | write => exact h
    | flush => exact h

theorem named_run {N : LNet ℓ κ ν} {addr} (ops : List LOp) {s : SrvSock ℓ} {n} (h : Named addr (s, n))
    (ht : addr.1 = ascii "tcp" ∨ (LOp.listen ∉ ops ∧ LOp.accept ∉ ops)) :
    Named addr (runCalls (LOp.run N.noted) ops s n).2 := by
  induction ops generalizing s n with
  | nil => exact h
  | cons op ops ih =>
    refine ih (s := (op.run N.noted s n).2.1) (n := (op.run N.noted s n).2.2) ?_
      (ht.imp_right fun h => ⟨fun x => h.1 (.tail _ x), fun x => h.2 (.tail _ x)⟩)
    cases op with
    | «open» => exact named_open h
    | listen => exact named_listen h (ht.resolve_right fun h => h.1 (.head _))
    | accept => exact named_accept h (ht.resolve_right fun h => h.2 (.head _))
    | close => exact named_close h
    | interrupt => exact named_close h
    | read => exact h
    | write => exact h
    | flush => exact h

/-- C142 in full for the nonblocking server socket. -/
theorem C142_nonblocking : C142_statement_for @LOp.runNb := fun _ _ _ N addr ops n =>
  (named_nb (N := N) ops (s := SrvSock.new (some addr)) (n := (n, [])) ⟨rfl, fun _ h => nomatch h⟩).2

/-- Holds for the blocking one on TCP addresses, and on all if only `Open` is
used to listen and nothing is accepted.  Missing: `Listen` and `Accept` on other
networks. -/
theorem C142_partial (N : LNet ℓ κ ν) (addr : Bytes × Bytes) (ops : List LOp) (n : ν)
    (ht : addr.1 = ascii "tcp" ∨ (LOp.listen ∉ ops ∧ LOp.accept ∉ ops)) :
    ∀ x ∈ (runCalls (LOp.run N.noted) ops (SrvSock.new (some addr)) (n, [])).2.2.2, x = addr :=
  (named_run (N := N) ops (s := SrvSock.new (some addr)) (n := (n, [])) ⟨rfl, fun _ h => nomatch h⟩ ht).2

example : (ascii "unix", ascii "/tmp/s").1 = ascii "tcp" ∨ (LOp.listen ∉ [LOp.open, .close] ∧ LOp.accept ∉ [LOp.open, .close]) :=
  .inr ⟨by decide, by decide⟩

/-! ## C143: a closed server socket accepts nothing -/

/-- C143: on a socket that is not open, `Accept` answers that it is not open and
leaves network and socket alone. -/
def C143_statement_for (step : ∀ {ℓ κ ν : Type}, LStep ℓ κ ν) : Prop :=
  ∀ (ℓ κ ν : Type) (N : LNet ℓ κ ν) (s : SrvSock ℓ) (n : ν), s.isOpen = false →
    ∃ e, e.code = NOT_OPEN ∧ step N .accept s n = (.done (some e) none, s, n)

def C143_statement : Prop := C143_statement_for @LOp.run ∧ C143_statement_for @LOp.runNb

theorem C143_violated : ¬ C143_statement := fun h => by
  obtain ⟨e, -, he⟩ := h.1 Nat Nat Nat goodLNet (SrvSock.new (some (ascii "tcp", ascii ":1"))) 0 rfl
  have : (LOp.run goodLNet .accept (SrvSock.new (some (ascii "tcp", ascii ":1"))) 0).2.2 = 2 := by decide +kernel
  rw [he] at this
  exact nomatch this

/-- A closed `TServerSocket` opens again and accepts. -/
theorem C143_reopens (N : LNet ℓ κ ν) (nw tx : Bytes) (n n' n'' : ν) (l : ℓ) (c : κ)
    (hl : N.listen (ascii "tcp") tx n = (.ok l, n')) (hc : N.accept l n' = (.ok c, n'')) :
    LOp.run N .accept ⟨none, some (nw, tx)⟩ n = (.done none (some c), ⟨some l, some (nw, tx)⟩, n'') := by
  rw [LOp.run]
  have : SrvSock.accept N ⟨none, some (nw, tx)⟩ n = (.ok (some c, none), ⟨some l, some (nw, tx)⟩, n'') := by
    rw [SrvSock.accept]
    simp only [SrvSock.listen, hl, acceptOn, hc]
  simp only [this]; rfl

/-- Holds for the nonblocking server socket.  Missing: the blocking one, which
listens again. -/
theorem C143_partial : C143_statement_for @LOp.runNb := by
  intro ℓ κ ν N s n h
  obtain ⟨_ | l, a⟩ := s
  · exact ⟨noSocket, rfl, rfl⟩
  · exact nomatch h

example : (SrvSock.new (ℓ := Nat) (some (ascii "tcp", ascii ":1"))).isOpen = false := rfl

theorem transportFromOsError_msg (e : Err) : ∃ e', transportFromOsError (some e) = some e' ∧ e'.msg = e.msg ∧
    (e.hasTypeId = false → e'.kind = .transport) := by
  unfold transportFromOsError
  dsimp only
  split
  · rename_i h
    exact ⟨e, rfl, rfl, fun h' => absurd (h.symm.trans h') (by decide)⟩
  · split <;> exact ⟨_, rfl, rfl, fun _ => rfl⟩

/-- `Accept` of an open server socket, of either kind, asks its listener once: it
hands over the connection, or reports why there is none. -/
theorem C143_accepts (N : LNet ℓ κ ν) (l : ℓ) (addr : Option (Bytes × Bytes)) (n n' : ν) :
    (∀ c, N.accept l n = (.ok c, n') → LOp.run N .accept ⟨some l, addr⟩ n = (.done none (some c), ⟨some l, addr⟩, n') ∧
      LOp.runNb N .accept ⟨some l, addr⟩ n = (.done none (some c), ⟨some l, addr⟩, n')) ∧
    ∀ e, N.accept l n = (.error e, n') → ∃ e', LOp.run N .accept ⟨some l, addr⟩ n = (.done (some e') none, ⟨some l, addr⟩, n') ∧
      LOp.runNb N .accept ⟨some l, addr⟩ n = (.done (some e') none, ⟨some l, addr⟩, n') ∧ e'.msg = e.msg ∧
      (e.hasTypeId = false → e'.kind = .transport) := by
  refine ⟨fun c h => ?_, fun e h => ?_⟩
  · simp [LOp.run, LOp.runNb, SrvSock.accept, nbAccept, acceptOn, h, LAns.ofAccept]
  · obtain ⟨e', h1, h2⟩ := transportFromOsError_msg e
    refine ⟨e', ?_, ?_, h2⟩
    · simp [LOp.run, SrvSock.accept, acceptOn, h, LAns.ofAccept, h1]
    · simp [LOp.runNb, nbAccept, acceptOn, h, LAns.ofAccept, h1]

/-- A server socket made of a listener is open and accepts on that listener, without
listening. -/
theorem C143_of_listener (N : LNet ℓ κ ν) (l : ℓ) (addr : Option (Bytes × Bytes)) (n n' : ν) (c : κ) (h : N.accept l n = (.ok c, n')) :
    (SrvSock.ofListener l addr).isOpen = true ∧
    LOp.runNb N .accept (SrvSock.ofListener l addr) n = (.done none (some c), SrvSock.ofListener l addr, n') :=
  ⟨rfl, ((C143_accepts N l addr n n').1 c h).2⟩

example := C143_of_listener goodLNet 7 none 3 _ _ rfl

/-- When `Accept` has to listen first and that fails, it reports the failure of
listening and stays closed. -/
theorem C143_accept_fails (N : LNet ℓ κ ν) (nw tx : Bytes) (n n' : ν) (e : Err) (h : N.listen (ascii "tcp") tx n = (.error e, n')) :
    ∃ e', LOp.run N .accept (SrvSock.new (some (nw, tx))) n = (.done (some e') none, SrvSock.new (some (nw, tx)), n') ∧ e'.msg = e.msg := by
  obtain ⟨e', h1, h2, -⟩ := transportFromOsError_msg e
  refine ⟨e', ?_, h2⟩
  simp [LOp.run, SrvSock.accept, SrvSock.new, SrvSock.listen, h, LAns.ofAccept, h1]

example := C143_accept_fails (κ := Nat) (ℓ := Nat) (ν := Nat) ⟨fun _ _ n => (.error ⟨.other, 0, ascii "in use"⟩, n), fun _ n => (.ok n, n), fun _ n => (none, n)⟩
  (ascii "tcp") (ascii ":1") 0 _ _ rfl

/-! ## C144: server sockets lose no listener -/

/-- The listeners after an attempt to make one. -/
def added (x : Except Err ℓ) (ls : List ℓ) : List ℓ :=
  match x with
  | .ok l => l :: ls
  | .error _ => ls

/-- A network that keeps account of the listeners made and not yet closed. -/
def LNet.counted (N : LNet ℓ κ ν) [DecidableEq ℓ] : LNet ℓ κ (ν × List ℓ) where
  listen a b n := let (x, m) := N.listen a b n.1; (x, m, added x n.2)
  accept l n := let (x, m) := N.accept l n.1; (x, m, n.2)
  close l n := let (x, m) := N.close l n.1; (x, m, if x.isNone then n.2.erase l else n.2)

/-- At any time the listeners that are open are the one the socket holds, or
none. -/
def Held [DecidableEq ℓ] (x : SrvSock ℓ × ν × List ℓ) : Prop := x.2.2 = x.1.listener.toList

section held
variable [DecidableEq ℓ]

theorem counted_listen {N : LNet ℓ κ ν} {a b n x m} (h : N.listen a b n.1 = (x, m)) :
    N.counted.listen a b n = (x, m, added x n.2) := by
  show ((N.listen a b n.1).1, (N.listen a b n.1).2, added (N.listen a b n.1).1 n.2) = _
  rw [h]
theorem counted_accept {N : LNet ℓ κ ν} {l n x m} (h : N.accept l n.1 = (x, m)) :
    N.counted.accept l n = (x, m, n.2) := by
  show ((N.accept l n.1).1, (N.accept l n.1).2, _) = _
  rw [h]
theorem counted_close {N : LNet ℓ κ ν} {l n x m} (h : N.close l n.1 = (x, m)) :
    N.counted.close l n = (x, m, if x.isNone then n.2.erase l else n.2) := by
  show ((N.close l n.1).1, (N.close l n.1).2, (if (N.close l n.1).1.isNone then _ else _)) = _
  rw [h]

theorem held_open {N : LNet ℓ κ ν} {s : SrvSock ℓ} {n} (h : Held (s, n)) : Held (s.open N.counted n).2 := by
  rw [SrvSock.open]
  split
  · exact h
  · rename_i ho
    obtain ⟨_ | l, _ | ⟨nw, tx⟩⟩ := s
    · exact h
    · have h : n.2 = [] := h
      rcases hx : N.listen nw tx n.1 with ⟨_ | l, m⟩ <;> simp only [counted_listen hx]
      · exact h
      · show l :: n.2 = [l]; rw [h]
    · exact absurd rfl ho
    · exact absurd rfl ho

theorem held_listen {N : LNet ℓ κ ν} {s : SrvSock ℓ} {n} (h : Held (s, n)) : Held (s.listen N.counted n).2 := by
  obtain ⟨_ | l, _ | ⟨nw, tx⟩⟩ := s
  · exact h
  · rw [SrvSock.listen]
    have h : n.2 = [] := h
    rcases hx : N.listen (ascii "tcp") tx n.1 with ⟨_ | l, m⟩ <;> simp only [counted_listen hx]
    · exact h
    · show l :: n.2 = [l]; rw [h]
  · exact h
  · exact h

theorem held_acceptOn {N : LNet ℓ κ ν} {l} {s : SrvSock ℓ} {n} (h : Held (s, n)) :
    Held (acceptOn N.counted l s n).2 := by
  rw [acceptOn]
  rcases hx : N.accept l n.1 with ⟨_ | c, m⟩ <;> simp only [counted_accept hx] <;> exact h

theorem held_accept {N : LNet ℓ κ ν} {s : SrvSock ℓ} {n} (h : Held (s, n)) : Held (s.accept N.counted n).2 := by
  rw [SrvSock.accept]
  split
  · exact held_acceptOn h
  · have hl := held_listen (N := N) h
    rcases hr : SrvSock.listen N.counted s n with ⟨_ | _ | _, s', n'⟩
    all_goals rw [hr] at hl
    · rename_i r
      cases r with
      | some e => exact hl
      | none =>
        simp only
        split
        · exact held_acceptOn hl
        · exact hl
    · exact hl
    · exact hl

theorem held_nbAccept {N : LNet ℓ κ ν} {s : SrvSock ℓ} {n} (h : Held (s, n)) : Held (s.nbAccept N.counted n).2 := by
  rw [nbAccept]
  split
  · exact held_acceptOn h
  · exact h

theorem held_close {N : LNet ℓ κ ν} {s : SrvSock ℓ} {n} (h : Held (s, n)) : Held (s.close N.counted n).2 := by
  obtain ⟨_ | l, a⟩ := s
  · exact h
  · rw [SrvSock.close]
    have h : n.2 = [l] := h
    rcases hx : N.close l n.1 with ⟨_ | e, m⟩ <;> simp only [counted_close hx]
    · show n.2.erase l = []
      rw [h]; simp
    · exact h

theorem held_step {N : LNet ℓ κ ν} (op : LOp) {s : SrvSock ℓ} {n} (h : Held (s, n)) :
    Held (op.run N.counted s n).2 ∧ Held (op.runNb N.counted s n).2 := by
  cases op with
  | «open» => exact ⟨held_open h, held_open h⟩
  | listen => exact ⟨held_listen h, held_open h⟩
  | accept => exact ⟨held_accept h, held_nbAccept h⟩
  | close => exact ⟨held_close h, held_close h⟩
  | interrupt => exact ⟨held_close h, held_close h⟩
  | read => exact ⟨h, h⟩
  | write => exact ⟨h, h⟩
  | flush => exact ⟨h, h⟩

/-- C144: after any calls with any answers of the network, the open listeners are
the one in the socket or none; a socket that is closed has left none behind. -/
theorem C144_listeners (N : LNet ℓ κ ν) (addr : Option (Bytes × Bytes)) (ops : List LOp) (n : ν) :
    (let r := runCalls (LOp.run N.counted) ops (SrvSock.new addr) (n, [])
     r.2.2.2 = r.2.1.listener.toList) ∧
    (let r := runCalls (LOp.runNb N.counted) ops (SrvSock.new addr) (n, [])
     r.2.2.2 = r.2.1.listener.toList) := by
  have key : ∀ (step : LOp → SrvSock ℓ → ν × List ℓ → LAns κ × SrvSock ℓ × ν × List ℓ),
      (∀ op s n, Held (s, n) → Held (step op s n).2) → ∀ ops s n, Held (s, n) →
      Held (runCalls step ops s n).2 := by
    intro step hs ops
    induction ops with
    | nil => exact fun _ _ h => h
    | cons op ops ih => exact fun s n h => ih _ _ (hs op s n h)
  exact ⟨key _ (fun op _ _ h => (held_step op h).1) ops _ _ rfl,
    key _ (fun op _ _ h => (held_step op h).2) ops _ _ rfl⟩

end held

example : (runCalls (LOp.run goodLNet.counted) [.accept, .open, .listen] (SrvSock.new (some (ascii "tcp", ascii ":1")))
    (0, [])).2.2.2 = [0] := by decide +kernel

/-! ## C145: a server socket does not panic -/

/-- C145: no call on a server socket panics. -/
def C145_statement : Prop :=
  ∀ (ℓ κ ν : Type) (N : LNet ℓ κ ν) (addr : Option (Bytes × Bytes)) (ops : List LOp) (n : ν),
    (∀ x ∈ (runCalls (LOp.run N) ops (SrvSock.new addr) n).1, x.2 ≠ .panicked) ∧
    (∀ x ∈ (runCalls (LOp.runNb N) ops (SrvSock.new addr) n).1, x.2 ≠ .panicked)

/-- The constructors take a nil address. -/
theorem C145_violated : ¬ C145_statement := fun h =>
  (h Nat Nat Nat goodLNet none [.open] 0).1 (.open, .panicked) (.head _) rfl

theorem calm_open (N : LNet ℓ κ ν) (a) (s : SrvSock ℓ) (n : ν) (h : s.addr = some a) :
    (∃ e, (s.open N n).1 = .ok e) ∧ (s.open N n).2.1.addr = some a := by
  rw [SrvSock.open]
  split
  · exact ⟨⟨_, rfl⟩, h⟩
  · rw [h]
    simp only
    rcases N.listen a.1 a.2 n with ⟨_ | l, m⟩
    · exact ⟨⟨_, rfl⟩, h⟩
    · exact ⟨⟨_, rfl⟩, rfl⟩

theorem calm_listen (N : LNet ℓ κ ν) (a) (s : SrvSock ℓ) (n : ν) (h : s.addr = some a) :
    (∃ e, (s.listen N n).1 = .ok e) ∧ (s.listen N n).2.1.addr = some a := by
  rw [SrvSock.listen]
  split
  · exact ⟨⟨_, rfl⟩, h⟩
  · rw [h]
    simp only
    rcases N.listen (ascii "tcp") a.2 n with ⟨_ | l, m⟩
    · exact ⟨⟨_, rfl⟩, h⟩
    · exact ⟨⟨_, rfl⟩, rfl⟩

theorem calm_acceptOn (N : LNet ℓ κ ν) (l) (s : SrvSock ℓ) (n : ν) : ∃ x, (acceptOn N l s n).1 = .ok x := by
  rw [acceptOn]
  rcases N.accept l n with ⟨_ | c, m⟩ <;> exact ⟨_, rfl⟩

theorem calm_accept (N : LNet ℓ κ ν) (a) (s : SrvSock ℓ) (n : ν) (h : s.addr = some a) :
    (∃ x, (s.accept N n).1 = .ok x) ∧ (s.accept N n).2.1.addr = some a := by
  rw [SrvSock.accept]
  split
  · exact ⟨calm_acceptOn .., by rw [acceptOn_same]; exact h⟩
  · obtain ⟨⟨e, he⟩, ha⟩ := calm_listen N a s n h
    rcases hr : SrvSock.listen N s n with ⟨r, s', n'⟩
    rw [hr] at he ha
    simp only at he ha
    subst he
    cases e with
    | some e => exact ⟨⟨_, rfl⟩, ha⟩
    | none =>
      simp only
      split
      · exact ⟨calm_acceptOn .., by rw [acceptOn_same]; exact ha⟩
      · exact ⟨⟨_, rfl⟩, ha⟩

theorem calm_close (N : LNet ℓ κ ν) (a) (s : SrvSock ℓ) (n : ν) (h : s.addr = some a) :
    (s.close N n).2.1.addr = some a := by
  rw [SrvSock.close]
  split
  · exact h
  · rename_i l _
    rcases N.close l n with ⟨_ | e, m⟩ <;> exact h

theorem calm_step (N : LNet ℓ κ ν) (a) (op : LOp) (s : SrvSock ℓ) (n : ν) (h : s.addr = some a) :
    ((op.run N s n).1 ≠ .panicked ∧ (op.run N s n).2.1.addr = some a) ∧
    ((op.runNb N s n).1 ≠ .panicked ∧ (op.runNb N s n).2.1.addr = some a) := by
  have ho : (LAns.ofRes (s.open N n).1 : LAns κ) ≠ .panicked := by
    obtain ⟨⟨e, he⟩, -⟩ := calm_open N a s n h
    rw [he]; exact fun h => nomatch h
  have hl : (LAns.ofRes (s.listen N n).1 : LAns κ) ≠ .panicked := by
    obtain ⟨⟨e, he⟩, -⟩ := calm_listen N a s n h
    rw [he]; exact fun h => nomatch h
  cases op with
  | «open» => exact ⟨⟨ho, (calm_open N a s n h).2⟩, ⟨ho, (calm_open N a s n h).2⟩⟩
  | listen => exact ⟨⟨hl, (calm_listen N a s n h).2⟩, ⟨ho, (calm_open N a s n h).2⟩⟩
  | accept =>
    refine ⟨⟨?_, (calm_accept N a s n h).2⟩, ?_, ?_⟩
    · show LAns.ofAccept (s.accept N n).1 ≠ _
      obtain ⟨⟨x, hx⟩, -⟩ := calm_accept N a s n h
      rw [hx]; exact fun h => nomatch h
    · show LAns.ofAccept (s.nbAccept N n).1 ≠ _
      rw [nbAccept]
      split
      · obtain ⟨x, hx⟩ := calm_acceptOn N (by assumption) s n
        rw [hx]; exact fun h => nomatch h
      · exact fun h => nomatch h
    · show (s.nbAccept N n).2.1.addr = _
      rw [nbAccept_same]; exact h
  | close => exact ⟨⟨(fun h => nomatch h), calm_close N a s n h⟩, ⟨(fun h => nomatch h), calm_close N a s n h⟩⟩
  | interrupt => exact ⟨⟨(fun h => nomatch h), calm_close N a s n h⟩, ⟨(fun h => nomatch h), calm_close N a s n h⟩⟩
  | read => exact ⟨⟨(fun h => nomatch h), h⟩, ⟨(fun h => nomatch h), h⟩⟩
  | write => exact ⟨⟨(fun h => nomatch h), h⟩, ⟨(fun h => nomatch h), h⟩⟩
  | flush => exact ⟨⟨(fun h => nomatch h), h⟩, ⟨(fun h => nomatch h), h⟩⟩

/-- Holds for sockets with an address.  Missing: nil addresses. -/
theorem C145_partial (N : LNet ℓ κ ν) (a : Bytes × Bytes) (ops : List LOp) (n : ν) :
    (∀ x ∈ (runCalls (LOp.run N) ops (SrvSock.new (some a)) n).1, x.2 ≠ .panicked) ∧
    (∀ x ∈ (runCalls (LOp.runNb N) ops (SrvSock.new (some a)) n).1, x.2 ≠ .panicked) := by
  have key : ∀ (step : LOp → SrvSock ℓ → ν → LAns κ × SrvSock ℓ × ν),
      (∀ op s n, s.addr = some a → (step op s n).1 ≠ .panicked ∧ (step op s n).2.1.addr = some a) →
      ∀ ops s n, s.addr = some a → ∀ x ∈ (runCalls step ops s n).1, x.2 ≠ .panicked := by
    intro step hs ops
    induction ops with
    | nil => exact fun _ _ _ _ h => nomatch h
    | cons op ops ih =>
      intro s n h x hx
      rcases List.mem_cons.1 hx with rfl | hx
      · exact (hs op s n h).1
      · exact ih _ _ (hs op s n h).2 x hx
  exact ⟨key _ (fun op s n h => (calm_step N a op s n h).1) ops _ n rfl,
    key _ (fun op s n h => (calm_step N a op s n h).2) ops _ n rfl⟩

example : (SrvSock.new (ℓ := Nat) (some (ascii "tcp", ascii ":1"))).addr = some (ascii "tcp", ascii ":1") := rfl

end Thrift
