import Verif.Lemmas.Calm
import Verif.Lemmas.BinaryService
import Verif.Spec.Hostile
/-!
# Generated readers and processors on arbitrary bytes
-/

namespace Thrift

/-! ## Without panic, on every transport -/

section
variable {p : Proto π} (K : p.CalmReads) {S : Schema}
include K

theorem calm_skipFields {f : TType → P π GoErr} (h : ∀ t, P.Calm True (f t)) : ∀ n, P.Calm True (skipFields p f n)
  | 0 => .stuck
  | n + 1 => .bind K.fieldBegin.weaken fun _ => .ite (.pure _) <| .bind (h _) fun _ => .bind K.fieldEnd.weaken fun _ => calm_skipFields h n

omit K in
theorem calm_repeatN {b : P π Unit} (h : P.Calm True b) : ∀ n, P.Calm True (repeatN n b)
  | 0 => .pure _
  | n + 1 => .bind h fun _ => calm_repeatN h n

theorem calm_skip (msd : Int) : ∀ n t d, P.Calm True (skip p msd n t d)
  | 0, _, _ => .stuck
  | n + 1, t, d => by
    have ih := calm_skip msd n
    have M : ∀ {α : Type} {m : P π (α × GoErr)}, P.Calm False m → P.Calm True (do return (← m).2) :=
      fun h => .bind h.weaken fun _ => .pure _
    unfold skip
    refine .ite (.pure _) <| .ite (M K.bool) <| .ite (M K.byte) <| .ite (M K.i16) <| .ite (M K.i32) <| .ite (M K.i64) <|
      .ite (M K.double) <| .ite (M K.string) <| .ite ?_ <| .ite ?_ <| .ite ?_ <| .ite ?_ (.pure _)
    · exact .bind K.structBegin.weaken fun _ => .ite (.pure _) <| .bind (calm_skipFields K (fun t => ih t _) _) fun _ => K.structEnd.weaken
    · exact .bind K.mapBegin.weaken fun _ => .ite (.pure _) <| .bind (calm_repeatN (.bind (ih _ _) fun _ => .bind (ih _ _) fun _ => .pure _) _) fun _ =>
        K.mapEnd.weaken
    · exact .bind K.setBegin.weaken fun _ => .ite (.pure _) <| .bind (calm_repeatN (.bind (ih _ _) fun _ => .pure _) _) fun _ => K.setEnd.weaken
    · exact .bind K.listBegin.weaken fun _ => .ite (.pure _) <| .bind (calm_repeatN (.bind (ih _ _) fun _ => .pure _) _) fun _ => K.listEnd.weaken

theorem calm_readFields {rd : Bytes → Bytes → Member → P π (Dyn × GoErr)} {sk : TType → P π GoErr} {sd : StructDef}
    (h : ∀ m ∈ sd.members, ∀ fn sn, P.Calm True (rd fn sn m)) (hs : ∀ t, P.Calm True (sk t)) :
    ∀ n attrs, P.Calm True (genReadFields p rd sk sd n attrs)
  | 0, _ => .stuck
  | n + 1, attrs => by
    refine .bind K.fieldBegin.weaken fun a => .ite (.pure _) <| .ite (.pure _) <| .bind ?_ fun _ => .ite (.pure _) <|
      .bind K.fieldEnd.weaken fun _ => .ite (.pure _) (calm_readFields h hs n _)
    unfold genReadMember
    split
    · rename_i m hm
      have hm : m ∈ sd.members := List.mem_of_find?_eq_some hm
      exact .ite (.bind (h m hm _ _) fun _ => .pure _) <| .ite (.bind (hs _) fun _ => .pure _) <| .bind (h m hm _ _) fun _ => .pure _
    · exact .bind (hs _) fun _ => .pure _

variable {R : Nat → Prop} (hR : ∀ j, R j → ∀ m ∈ (S.structs j).members, m.ty.Direct R) (L : FloatLib) (mem : List Nat → Nat) (msd : Int)
include hR

theorem calm_readVal : ∀ n path fn sn ty, ty.Direct R → P.Calm True (genReadVal p S L mem msd n path fn sn ty)
  | 0, _, _, _, _, _ => .stuck
  | n + 1, path, fn, sn, ty, h => by
    cases ty with
    | bool => exact .bind K.bool.weaken fun _ => .pure _
    | byte => exact .bind K.byte.weaken fun _ => .pure _
    | i16 => exact .bind K.i16.weaken fun _ => .pure _
    | i32 => exact .bind K.i32.weaken fun _ => .pure _
    | i64 => exact .bind K.i64.weaken fun _ => .pure _
    | double => exact .bind K.double.weaken fun _ => .pure _
    | string => exact .bind K.string.weaken fun _ => .pure _
    | enum k => exact .bind K.i32.weaken fun _ => .pure _
    | struct k =>
      exact .bind (.bind K.structBegin.weaken fun _ => .ite (.pure _) <|
        .bind (calm_readFields K (fun m hm _ _ => calm_readVal n _ _ _ _ (hR k h m hm)) (fun t => calm_skip K msd n t _) n _) fun _ =>
        .ite (.pure _) <| .bind K.structEnd.weaken fun _ => .pure _) fun _ => .pure _
    | binary => exact h.elim
    | list e => exact h.elim
    | set e => exact h.elim
    | map k v => exact h.elim

theorem calm_read (n : Nat) (path : List Nat) (k : Nat) (hk : R k) : P.Calm True (genRead p S L mem msd n path (S.structs k)) :=
  .bind K.structBegin.weaken fun _ => .ite (.pure _) <|
    .bind (calm_readFields K (fun m hm _ _ => calm_readVal K hR L mem msd n _ _ _ _ (hR k hk m hm)) (fun t => calm_skip K msd n t _) n _) fun _ =>
    .ite (.pure _) <| .bind K.structEnd.weaken fun _ => .pure _

end

/-- Processing a request does not panic. -/
theorem calm_process {ip : Proto ι} {op : Proto ω} (I : ip.CalmReads) (O : op.CalmWrites) {S : Schema} {sv : Service η}
    (hv : sv.WellTyped S) (hd : ∀ m ∈ sv.methods, S.Direct m.args) (L : FloatLib) (mem : List Nat → Nat) (msd : Int) (n : Nat) :
    P.Calm True (process ip op S L mem msd n sv) := by
  refine .bind (.on I.messageBegin.weaken) fun a => .ite (.pure _) ?_
  obtain ⟨⟨name, t, q⟩, e⟩ := a
  dsimp only
  split
  · exact .bind (.on (calm_skip I msd n _ _)) fun _ => .bind (.on I.messageEnd.weaken) fun _ =>
      .bind (.on (calm_sendException O _ _ _).weaken) fun _ => .pure _
  · rename_i m hm
    have hm : m ∈ sv.methods := List.mem_of_find?_eq_some hm
    obtain ⟨R, hk, hR⟩ := hd m hm
    refine .bind (.on (calm_read I hR L mem msd n [] m.args hk)) fun a => ?_
    obtain ⟨a, _ | e⟩ := a
    · refine .bind (.on I.messageEnd.weaken) fun _ => .bind .get fun s => .bind (.modify _) fun _ => ?_
      have hr := hv.results m hm s.handler a
      rcases hh : sv.handle m s.handler a with ⟨⟨r, _ | e⟩, h'⟩ <;> rw [hh] at hr <;> simp only [hh]
      · refine .bind (.on ?_) fun _ => .pure _
        obtain ⟨N, hN⟩ := calm_reply O hv.keys m (if m.oneway then (S.structs m.result).fresh S else r) (by
          by_cases ho : m.oneway = true
          · intro x hx; rw [hv.oneway m hm ho] at hx; cases hx
          · rw [if_neg ho]; exact hr r h' rfl)
        exact P.Calm.down (le_sendReply (Proto.Le.refl op) S (Nat.le_max_left n N) m _ q) (hN _ (Nat.le_max_right ..) q)
      · exact .bind (.on (calm_sendException O _ _ _).weaken) fun _ => .pure _
    · exact .bind (.on I.messageEnd.weaken) fun _ => .bind (.on (calm_sendException O _ _ _).weaken) fun _ => .pure _

/-! ## To the end, on every finite input -/

namespace Bin
open BinaryProtocol

theorem wp_message (s : Bin) (inp : Bytes) : Wp readMessageBegin s inp (fun _ _ i => i.length ≤ inp.length) NoPanic := by
  unfold readMessageBegin
  refine Wp.bind (wp_i32 s inp) fun r s' i h => Wp.ite (fun _ => Wp.pure h.1) fun _ => Wp.ite (fun _ => Wp.ite (fun _ => Wp.pure h.1) fun _ => ?_) fun _ => ?_
  · refine Wp.bind (wp_string s' i) fun r s'' j h' => Wp.ite (fun _ => Wp.pure (Nat.le_trans h'.1 h.1)) fun _ => ?_
    exact Wp.bind (wp_i32 s'' j) fun r _ l h'' => Wp.ite (fun _ => Wp.pure (by have := h''.1; have := h'.1; have := h.1; omega)) fun _ =>
      Wp.pure (by have := h''.1; have := h'.1; have := h.1; omega)
  · refine Wp.bind (Q := fun _ _ j => j = i) (Wp.get rfl) fun _ s'' j hj => ?_
    subst hj
    refine Wp.ite (fun _ => Wp.pure h.1) fun _ => ?_
    refine Wp.bind (wp_stringBody _ s'' j) fun r s3 k h' => Wp.ite (fun _ => Wp.pure (Nat.le_trans h' h.1)) fun _ => ?_
    refine Wp.bind (wp_byte s3 k) fun r s4 l h'' => Wp.ite (fun _ => Wp.pure (by have := h''.1.1; have := h.1; omega)) fun _ => ?_
    exact Wp.bind (wp_i32 s4 l) fun r _ o h3 => Wp.ite (fun _ => Wp.pure (by have := h3.1; have := h''.1.1; have := h.1; omega)) fun _ =>
      Wp.pure (by have := h3.1; have := h''.1.1; have := h.1; omega)

variable {S : Schema} {L : FloatLib} {mem : List Nat → Nat} {msd : Int}

theorem resolved_stop (sd : StructDef) (n : Bytes) (t : TType) (id : I16) (h : t = TT.STOP) : (resolveField sd n t id).2.1 = TT.STOP := by
  subst h
  simp only [resolveField, show TT.STOP ≠ TT.GENERIC by decide, if_false]

theorem wp_readFields {rd : Bytes → Bytes → Member → P Bin (Dyn × GoErr)} {sk : TType → P Bin GoErr} {sd : StructDef} (B : Nat)
    (h : ∀ m ∈ sd.members, ∀ fn sn s (i : Bytes), i.length < B → Wp (rd fn sn m) s i (fun _ _ j => j.length ≤ i.length) NoPanic)
    (hs : ∀ t s (i : Bytes), i.length < B → Wp (sk t) s i (fun _ _ j => j.length ≤ i.length) NoPanic) :
    ∀ (n : Nat) (attrs : Attrs) (s : Bin) (inp : Bytes), inp.length ≤ B → inp.length < n →
      Wp (genReadFields binary rd sk sd n attrs) s inp (fun _ _ i => i.length ≤ inp.length) NoPanic
  | 0, _, _, _, _, h' => by omega
  | n + 1, attrs, s, inp, hB, hn => by
    unfold genReadFields
    refine Wp.bind (wp_fieldBegin s inp) fun r s' i hi => Wp.ite (fun _ => Wp.pure hi.1) fun _ => Wp.ite (fun _ => Wp.pure hi.1) fun hstop => ?_
    have hlt := hi.2 fun hc => hstop (resolved_stop sd _ _ _ hc)
    refine Wp.bind (Q := fun _ _ j => j.length ≤ i.length) ?_ fun r s'' j hj => ?_
    · unfold genReadMember
      split
      · rename_i m hm
        have hm : m ∈ sd.members := List.mem_of_find?_eq_some hm
        exact Wp.ite (fun _ => Wp.bind (h m hm _ _ s' i (by omega)) fun _ _ _ h => Wp.pure h) fun _ =>
          Wp.ite (fun _ => Wp.bind (hs _ s' i (by omega)) fun _ _ _ h => Wp.pure h) fun _ =>
          Wp.bind (h m hm _ _ s' i (by omega)) fun _ _ _ h => Wp.pure h
      · exact Wp.bind (hs _ s' i (by omega)) fun _ _ _ h => Wp.pure h
    · refine Wp.ite (fun _ => Wp.pure (by omega)) fun _ => Wp.bind (Q := fun _ _ j' => j' = j) (Wp.pure rfl) fun _ s3 j' hj' => ?_
      subst hj'
      exact Wp.ite (fun _ => Wp.pure (by omega)) fun _ =>
        Wp.mono (wp_readFields B h hs n _ s3 j' (by omega) (by omega)) fun _ _ l hl => by omega

variable {R : Nat → Prop} (hR : ∀ j, R j → ∀ m ∈ (S.structs j).members, m.ty.Direct R)
include hR

theorem wp_readVal : ∀ (n : Nat) path fn sn ty (s : Bin) (inp : Bytes), ty.Direct R → inp.length + 2 < n →
    Wp (genReadVal binary S L mem msd n path fn sn ty) s inp (fun _ _ i => i.length ≤ inp.length) NoPanic
  | 0, _, _, _, _, _, _, _, h => by omega
  | n + 1, path, fn, sn, ty, s, inp, hd, hn => by
    have M : ∀ {α β : Type} {m : P Bin (α × GoErr)} {f : α × GoErr → β}, Wp m s inp (Short inp) NoPanic →
        Wp (do let x ← m; return f x) s inp (fun _ _ i => i.length ≤ inp.length) NoPanic :=
      fun h => Wp.bind h fun _ _ _ h => Wp.pure h.1
    cases ty with
    | bool => exact M (wp_bool s inp)
    | byte => exact M (Wp.mono (wp_byte s inp) fun _ _ _ h => h.1)
    | i16 => exact M (wp_i16 s inp)
    | i32 => exact M (wp_i32 s inp)
    | i64 => exact M (wp_i64 s inp)
    | double => exact M (wp_double s inp)
    | string => exact M (wp_string s inp)
    | enum k => exact M (wp_i32 s inp)
    | struct k =>
      refine Wp.bind (Q := fun _ _ i => i.length ≤ inp.length) ?_ fun _ _ _ h => Wp.pure h
      refine Wp.bind (Q := fun _ _ i => i = inp) (Wp.pure rfl) fun _ s' i hi => ?_
      subst hi
      refine Wp.ite (fun _ => Wp.pure (Nat.le_refl _)) fun _ => ?_
      refine Wp.bind (wp_readFields i.length (fun m hm fn sn s j hj => wp_readVal n _ _ _ _ s j (hR k hd m hm) (by omega))
        (fun t s j hj => wp_skip msd n t _ s j (by omega)) n _ s' i (Nat.le_refl _) (by omega)) fun _ s'' j hj => ?_
      exact Wp.ite (fun _ => Wp.pure hj) fun _ => Wp.bind (Q := fun _ _ j' => j' = j) (Wp.pure rfl) fun _ _ _ h => Wp.pure (by subst h; exact hj)
    | binary => exact hd.elim
    | list e => exact hd.elim
    | set e => exact hd.elim
    | map k v => exact hd.elim

theorem wp_read (n : Nat) (path : List Nat) (k : Nat) (hk : R k) (s : Bin) (inp : Bytes) (hn : inp.length + 2 < n) :
    Wp (genRead binary S L mem msd n path (S.structs k)) s inp (fun _ _ i => i.length ≤ inp.length) NoPanic := by
  refine Wp.bind (Q := fun _ _ i => i = inp) (Wp.pure rfl) fun _ s' i hi => ?_
  subst hi
  refine Wp.ite (fun _ => Wp.pure (Nat.le_refl _)) fun _ => ?_
  refine Wp.bind (wp_readFields i.length (fun m hm fn sn s j hj => wp_readVal hR n _ _ _ _ s j (hR k hk m hm) (by omega))
    (fun t s j hj => wp_skip msd n t _ s j (by omega)) n _ s' i (Nat.le_refl _) (by omega)) fun _ s'' j hj => ?_
  exact Wp.ite (fun _ => Wp.pure hj) fun _ => Wp.bind (Q := fun _ _ j' => j' = j) (Wp.pure rfl) fun _ _ _ h => Wp.pure (by subst h; exact hj)

end Bin

/-! ## Processing a request -/

/-- The program returns. -/
def Ends (m : P π α) (s : π) (t : Bytes × Bytes) : Prop := ∃ a s' t', m.run duplex s t = (.ok (a, s'), t')

theorem Ends.bind {m : P π α} {f : α → P π β} {s : π} {t : Bytes × Bytes} {a : α} {s' : π} {t' : Bytes × Bytes}
    (h : m.run duplex s t = (.ok (a, s'), t')) (hf : Ends (f a) s' t') : Ends (m >>= f) s t := by
  obtain ⟨b, s2, t2, h2⟩ := hf
  exact ⟨b, s2, t2, by rw [P.run_bind, h, andThen_ok, h2]⟩

theorem P.Calm.ends {m : P π α} (h : P.Calm False m) (s : π) (t : Bytes × Bytes) : Ends m s t := by
  obtain ⟨⟨a, s'⟩, t', h⟩ := (h s).duplex t
  exact ⟨a, s', t', h⟩

theorem Ends.calm {m : P π α} {f : α → P π β} {s : π} {t : Bytes × Bytes} (h : P.Calm False m) (hf : ∀ a s' t', Ends (f a) s' t') :
    Ends (m >>= f) s t := by
  obtain ⟨a, s', t', h⟩ := h.ends s t
  exact .bind h (hf a s' t')

/-- A reader that does not panic, run on the input side of a server. -/
theorem Ends.input {ι ω η α β : Type} {m : P ι α} {f : α → P (Server ι ω η) β} {i : ι} {o : ω} {h : η} {inp out : Bytes}
    {Q : α → ι → Bytes → Prop} (hm : Wp m i inp Q NoPanic) (hf : ∀ a i' inp', Q a i' inp' → Ends (f a) ⟨i', o, h⟩ (inp', out)) :
    Ends (P.input m >>= f) ⟨i, o, h⟩ (inp, out) := by
  rcases hm out with ⟨a, i', inp', h1, h2⟩ | ⟨_, _, h2⟩
  · exact .bind (by rw [P.run_input, h1, putBack_ok]) (hf a i' inp' h2)
  · exact h2.elim

/-- Each request is processed to the end. -/
theorem process_ends {ω : Type} {op : Proto ω} (O : op.CalmWrites) {S : Schema} {sv : Service η} (hv : sv.WellTyped S)
    (hd : ∀ m ∈ sv.methods, S.Direct m.args) (L : FloatLib) (mem : List Nat → Nat) (msd : Int) (s : Server Bin ω η) (inp out : Bytes) :
    ∃ N, ∀ n, N ≤ n → Ends (process binary op S L mem msd n sv) s (inp, out) := by
  -- some fuel is enough
  suffices h : ∃ N, Ends (process binary op S L mem msd N sv) s (inp, out) by
    obtain ⟨N, a, s', t', h⟩ := h
    refine ⟨N, fun n hn => ⟨a, s', t', ?_⟩⟩
    rw [(le_process (Proto.Le.refl _) (Proto.Le.refl _) S L mem msd hn sv).run duplex s (inp, out) (by rw [h]; simp), h]
  obtain ⟨i, o, h⟩ := s
  unfold process
  obtain ⟨a, i', inp', h1⟩ : ∃ a i' inp', BinaryProtocol.readMessageBegin.run duplex i (inp, out) = (.ok (a, i'), (inp', out)) := by
    rcases Bin.wp_message i inp out with ⟨a, i', inp', h, _⟩ | ⟨_, _, hx⟩
    · exact ⟨a, i', inp', h⟩
    · exact hx.elim
  have h1' : (P.input (ω := ω) (η := η) binary.readMessageBegin).run duplex ⟨i, o, h⟩ (inp, out) = (.ok (a, ⟨i', o, h⟩), (inp', out)) := by
    rw [P.run_input]
    show putBack _ (BinaryProtocol.readMessageBegin.run duplex i (inp, out)) = _
    rw [h1, putBack_ok]
  obtain ⟨⟨name, ty, q⟩, e⟩ := a
  suffices hs : ∃ N, Ends (if e.isSome = true then pure (false, e) else match sv.find name with
      | none => processUnknown binary op msd N name q
      | some m => processMethod binary op S L mem msd N sv m q) ⟨i', o, h⟩ (inp', out) by
    obtain ⟨N, hN⟩ := hs
    exact ⟨N, .bind h1' hN⟩
  by_cases he : e.isSome = true
  · simp only [he, if_true]
    exact ⟨0, _, _, _, rfl⟩
  simp only [he]
  cases hf : sv.find name with
  | none =>
    refine ⟨inp'.length + 2, ?_⟩
    refine Ends.input (Bin.wp_skip msd _ _ _ i' inp' (by omega)) fun _ i2 inp2 _ => ?_
    refine Ends.input (Q := fun _ _ _ => True) (Wp.pure trivial) fun _ i3 inp3 _ => ?_
    exact (P.Calm.bind (.on (calm_sendException O _ _ _)) fun _ => .pure _).ends _ _
  | some m =>
    have hm : m ∈ sv.methods := List.mem_of_find?_eq_some hf
    obtain ⟨R, hk, hR⟩ := hd m hm
    obtain ⟨as, err, i2, inp2, h2⟩ : ∃ as err i2 inp2, (genRead binary S L mem msd (inp'.length + 3) [] (S.structs m.args)).run duplex i' (inp', out) =
        (.ok ((as, err), i2), (inp2, out)) := by
      rcases Bin.wp_read (L := L) (mem := mem) (msd := msd) hR (inp'.length + 3) [] m.args hk i' inp' (by omega) out with
        ⟨⟨as, err⟩, i2, inp2, h2, -⟩ | ⟨_, _, hx⟩
      · exact ⟨as, err, i2, inp2, h2⟩
      · exact hx.elim
    have h2' : ∀ n, inp'.length + 3 ≤ n → (P.input (ω := ω) (η := η) (genRead binary S L mem msd n [] (S.structs m.args))).run duplex ⟨i', o, h⟩ (inp', out) =
        (.ok ((as, err), ⟨i2, o, h⟩), (inp2, out)) := by
      intro n hn
      rw [P.run_input]
      show putBack _ ((genRead binary S L mem msd n [] (S.structs m.args)).run duplex i' (inp', out)) = _
      rw [(le_read (Proto.Le.refl _) S L mem msd hn [] _).run duplex i' _ (by rw [h2]; simp), h2, putBack_ok]
    cases err with
    | some x =>
      refine ⟨inp'.length + 3, .bind (h2' _ (Nat.le_refl _)) ?_⟩
      refine Ends.input (Q := fun _ _ _ => True) (Wp.pure trivial) fun _ i3 inp3 _ => ?_
      exact (P.Calm.bind (.on (calm_sendException O _ _ _)) fun _ => .pure _).ends _ _
    | none =>
      have hr := hv.results m hm h as
      cases hh : sv.handle m h as with
      | mk x h' =>
      obtain ⟨r, _ | y⟩ := x
      · obtain ⟨N, hN⟩ := calm_reply O hv.keys m (if m.oneway then (S.structs m.result).fresh S else r) (by
          by_cases ho : m.oneway = true
          · intro x hx; rw [hv.oneway m hm ho] at hx; cases hx
          · rw [if_neg ho]; exact hr r h' hh)
        refine ⟨max N (inp'.length + 3), .bind (h2' _ (Nat.le_max_right ..)) ?_⟩
        refine Ends.input (Q := fun _ _ _ => True) (Wp.pure trivial) fun _ i3 inp3 _ => ?_
        refine .bind (P.run_get ..) ?_
        simp only [hh]
        refine .bind (P.run_modify ..) ?_
        exact (P.Calm.bind (.on (hN _ (Nat.le_max_left ..) q)) fun _ => .pure _).ends _ _
      · refine ⟨inp'.length + 3, .bind (h2' _ (Nat.le_refl _)) ?_⟩
        refine Ends.input (Q := fun _ _ _ => True) (Wp.pure trivial) fun _ i3 inp3 _ => ?_
        refine .bind (P.run_get ..) ?_
        simp only [hh]
        refine .bind (P.run_modify ..) ?_
        exact (P.Calm.bind (.on (calm_sendException O _ _ _)) fun _ => .pure _).ends _ _

end Thrift
