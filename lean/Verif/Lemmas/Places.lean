/- Which errors a program may return. -/
import Verif.Spec.Places
import Verif.Lemmas.GenRoundTrip

namespace Thrift

theorem Errs.pure {a : α} {err : α → GoErr} {good : Err → Prop} (h : ∀ e, err a = some e → good e) : Errs (pure a : P π α) err good := by
  intro σ T s t a' s' t' e hr he
  simp only [P.run_pure, Prod.mk.injEq, Res.ok.injEq] at hr
  obtain ⟨⟨rfl, -⟩, -⟩ := hr
  exact h e he

theorem Errs.panic {err : α → GoErr} {good : Err → Prop} : Errs (P.panic : P π α) err good := by
  intro σ T s t a' s' t' e hr
  simp at hr

theorem Errs.stuck {err : α → GoErr} {good : Err → Prop} : Errs (P.stuck : P π α) err good := by
  intro σ T s t a' s' t' e hr
  simp at hr

/-- What the first part returned is known to the second. -/
theorem Errs.after {m : P π α} {f : α → P π β} {err : β → GoErr} {err' : α → GoErr} {good good' : Err → Prop} (hm : Errs m err' good')
    (h : ∀ a, (∀ e, err' a = some e → good' e) → Errs (f a) err good) : Errs (m >>= f) err good := by
  intro σ T s t b s' t' e hr he
  simp only [P.run_bind] at hr
  generalize hx : m.run T s t = x at hr
  obtain ⟨x, t₁⟩ := x
  cases x with
  | ok y => exact h y.1 (fun e' he' => hm σ T s t y.1 y.2 t₁ e' hx he') σ T _ _ _ _ _ _ hr he
  | panic => simp [andThen] at hr
  | stuck => simp [andThen] at hr

theorem Errs.bind {m : P π α} {f : α → P π β} {err : β → GoErr} {good : Err → Prop} (h : ∀ a, Errs (f a) err good) : Errs (m >>= f) err good :=
  Errs.after (err' := fun _ => none) (good' := fun _ => True) (fun _ _ _ _ _ _ _ _ _ h => nomatch h) fun a _ => h a

theorem Errs.ite {c : Prop} [Decidable c] {a b : P π α} {err : α → GoErr} {good : Err → Prop} (ha : c → Errs a err good)
    (hb : ¬ c → Errs b err good) : Errs (if c then a else b) err good := by
  split
  · exact ha ‹_›
  · exact hb ‹_›

theorem Errs.wrap {m : P π GoErr} {w : Err → Err} {good : Err → Prop} (h : ∀ e, good (w e)) : Errs (wrapErr w m) id good :=
  Errs.bind fun r => Errs.pure fun e he => by
    cases r with
    | none => cases he
    | some r => cases he; exact h r

/-- A call, and the rest if it did not fail. -/
theorem Errs.seq {m k : P π GoErr} {good : Err → Prop} (h1 : Errs m id good) (h2 : Errs k id good) :
    Errs (m >>= fun e => if e.isSome then Pure.pure e else k) id good :=
  Errs.after h1 fun _ ha => Errs.ite (fun _ => Errs.pure ha) fun _ => h2

theorem at_writeStruct (n : Bytes) (e : Err) : (excWriteStruct n e).At (ascii "Unable to write struct " ++ n) := ⟨e.msg, rfl⟩

theorem at_writeField (f n : Bytes) (e : Err) :
    (excWriteField f n e).At (ascii "Unable to write field (" ++ f ++ ascii ") in " ++ n) := ⟨e.msg, rfl⟩

theorem at_readStruct (n : Bytes) (e : Err) : (excReadStruct n e).At (ascii "Unable to read struct " ++ n) := ⟨e.msg, rfl⟩

theorem at_readField (f n : Bytes) (e : Err) :
    (excReadField f n e).At (ascii "Unable to read field (" ++ f ++ ascii ") in " ++ n) := ⟨e.msg, rfl⟩

theorem tells_member {sd : StructDef} {m : Member} (hm : m ∈ sd.members) (e : Err) : (excWriteField m.name sd.name e).TellsWritten sd :=
  .inr (.inr ⟨m, hm, at_writeField _ _ _⟩)

theorem places_val (p : Proto π) (S : Schema) {good : Err → Prop} : ∀ (fuel : Nat) (fn sn : Bytes) (ty : Ty) (d : Dyn), ty.Single →
    (∀ e, good (excWriteField fn sn e)) → Errs (genWriteVal p S fuel fn sn ty d) id good
  | 0, _, _, _, _, _, _ => by simp only [genWriteVal]; exact Errs.stuck
  | fuel + 1, fn, sn, ty, d, hs, h => by
    cases ty <;> cases d <;> first
      | exact hs.elim
      | (simp only [genWriteVal]; first | exact Errs.wrap h | exact Errs.panic | exact Errs.ite (fun _ => Errs.wrap h) fun _ => Errs.panic)

theorem Errs.mono {m : P π α} {err : α → GoErr} {good good' : Err → Prop} (h : Errs m err good) (hg : ∀ e, good e → good' e) :
    Errs m err good' := fun σ T s t a s' t' e hr he => hg e (h σ T s t a s' t' e hr he)

theorem places_elems {wr : Dyn → P π GoErr} {good : Err → Prop} (h : ∀ d, Errs (wr d) id good) : ∀ ds, Errs (genWriteElems wr ds) id good
  | [] => Errs.pure fun _ he => nomatch he
  | d :: ds => Errs.seq (h d) (places_elems h ds)

theorem places_entries {wk wv : Dyn → P π GoErr} {good : Err → Prop} (hk : ∀ d, Errs (wk d) id good) (hv : ∀ d, Errs (wv d) id good) :
    ∀ es, Errs (genWriteEntries wk wv es) id good
  | [] => Errs.pure fun _ he => nomatch he
  | (k, v) :: es => Errs.seq (hk k) (Errs.seq (hv v) (places_entries hk hv es))

/-- What can be said of any value: the label given, or the part that failed. -/
theorem places_any (p : Proto π) (S : Schema) : ∀ (fuel : Nat) (fn sn : Bytes) (ty : Ty) (d : Dyn),
    Errs (genWriteVal p S fuel fn sn ty d) id fun e => if ty.Single then
      e.At (ascii "Unable to write field (" ++ fn ++ ascii ") in " ++ sn) else e.TellsPart S ty
  | 0, _, _, _, _ => by simp only [genWriteVal]; exact Errs.stuck
  | fuel + 1, fn, sn, ty, d => by
    by_cases hs : ty.Single
    · simp only [if_pos hs]
      exact places_val p S (fuel + 1) fn sn ty d hs (at_writeField fn sn)
    · simp only [if_neg hs]
      have part : ∀ (ty : Ty) (d : Dyn), Errs (genWriteVal p S fuel [] [] ty d) id (·.TellsPart S ty) := fun ty d =>
        (places_any p S fuel [] [] ty d).mono fun e he => by
          by_cases h : ty.Single
          · rw [if_pos h] at he
            cases ty <;> first | exact h.elim | exact he
          · rwa [if_neg h] at he
      cases ty with
      | struct k =>
        cases d <;> try (simp only [genWriteVal]; exact Errs.panic)
        case struct a b nm x y attrs =>
          cases b
          · simp only [genWriteVal]; exact Errs.panic
          · simp only [genWriteVal]
            exact Errs.ite (fun _ => Errs.wrap fun e => at_writeStruct _ e) fun _ => Errs.panic
      | list t =>
        cases d <;> try (simp only [genWriteVal]; exact Errs.panic)
        case list a b vs =>
          simp only [genWriteVal]
          exact Errs.seq (Errs.wrap fun e => .inl (at_writeField _ _ e)) (Errs.seq
            (places_elems (fun d => (part t d).mono fun _ h => .inr h) vs) (Errs.wrap fun e => .inl (at_writeField _ _ e)))
      | set t =>
        cases d <;> try (simp only [genWriteVal]; exact Errs.panic)
        case set a b l vs =>
          simp only [genWriteVal]
          exact Errs.seq (Errs.wrap fun e => .inl (at_writeField _ _ e)) (Errs.seq
            (places_elems (fun d => (part t d).mono fun _ h => .inr h) vs) (Errs.wrap fun e => .inl (at_writeField _ _ e)))
      | map k v =>
        cases d <;> try (simp only [genWriteVal]; exact Errs.panic)
        case map a kt b l x y es =>
          simp only [genWriteVal]
          refine Errs.seq (Errs.wrap fun e => .inl (at_writeField _ _ e)) ?_
          split
          · exact Errs.panic
          · exact Errs.seq (places_entries (fun d => (part k d).mono fun _ h => .inr (.inl h)) (fun d => (part v d).mono fun _ h => .inr (.inr h)) _)
              (Errs.wrap fun e => .inl (at_writeField _ _ e))
      | _ => exact absurd trivial hs

/-- Members written with whatever errors are allowed for their values. -/
theorem places_member (p : Proto π) (S : Schema) (fuel : Nat) {sd : StructDef} (attrs : List (Int × Dyn)) {m : Member} (hm : m ∈ sd.members) :
    Errs (genWriteMember p S (genWriteVal p S fuel) sd attrs m) id fun e => e.TellsWritten sd ∨ ∃ m ∈ sd.members, ¬ m.ty.Single ∧ e.TellsPart S m.ty :=
  Errs.ite (fun _ => Errs.seq (Errs.wrap fun e => .inl (tells_member hm e)) (Errs.seq
    ((places_any p S fuel _ _ _ _).mono fun e he => by
      by_cases h : m.ty.Single
      · rw [if_pos h] at he; exact .inl (.inr (.inr ⟨m, hm, he⟩))
      · rw [if_neg h] at he; exact .inr ⟨m, hm, h, he⟩)
    (Errs.wrap fun e => .inl (tells_member hm e)))) fun _ => Errs.pure fun _ he => nomatch he

theorem places_members (p : Proto π) (S : Schema) (fuel : Nat) {sd : StructDef} (attrs : List (Int × Dyn)) : ∀ ms : List Member, (∀ m ∈ ms, m ∈ sd.members) →
    Errs (genWriteMembers p S (genWriteVal p S fuel) sd attrs ms) id fun e => e.TellsWritten sd ∨ ∃ m ∈ sd.members, ¬ m.ty.Single ∧ e.TellsPart S m.ty
  | [], _ => Errs.pure fun _ he => nomatch he
  | m :: ms, h => Errs.seq (places_member p S fuel attrs (h m List.mem_cons_self))
      (places_members p S fuel attrs ms fun x hx => h x (List.mem_cons_of_mem _ hx))

theorem places_body (p : Proto π) {sd : StructDef} {fields : P π GoErr} {good : Err → Prop} (h : Errs fields id fun e => e.TellsWritten sd ∨ good e) :
    Errs (genWriteBody p sd fields) id fun e => e.TellsWritten sd ∨ good e :=
  Errs.seq (Errs.wrap fun e => .inl (.inl (at_writeStruct _ e))) (Errs.seq h (Errs.seq (Errs.wrap fun e => .inl (.inr (.inl ⟨e.msg, rfl⟩)))
    (Errs.wrap fun e => .inl (.inl (at_writeStruct _ e)))))

/-- An error that is wrapped in what is returned beside a value. -/
theorem places_return {sd : StructDef} {w : Err → Err} (h : ∀ e, (w e).TellsRead sd) (a : α) (r : GoErr) :
    Errs (Pure.pure (a, r.map w) : P π (α × GoErr)) (·.2) (·.TellsRead sd) :=
  Errs.pure (err := fun x : α × GoErr => x.2) (a := (a, r.map w)) fun e he => by
    cases r with
    | none => cases he
    | some r => cases he; exact h r

theorem places_fields (p : Proto π) (rd : Bytes → Bytes → Member → P π (Dyn × GoErr)) (sk : TType → P π GoErr) (sd : StructDef) :
    ∀ (fuel : Nat) (attrs : List (Int × Dyn)), Errs (genReadFields p rd sk sd fuel attrs) (·.2) (·.TellsRead sd)
  | 0, _ => by simp only [genReadFields]; exact Errs.stuck
  | fuel + 1, attrs => by
    have hn : ∀ (n : Bytes) (a : List (Int × Dyn)) (r : GoErr),
        Errs (Pure.pure (a, r.map (excReadField n sd.name)) : P π (List (Int × Dyn) × GoErr)) (·.2) (·.TellsRead sd) :=
      fun n a r => places_return (fun e => .inr ⟨n, at_readField n _ e⟩) a r
    simp only [genReadFields]
    refine Errs.bind fun x => Errs.ite (fun _ => hn _ _ _) fun _ => Errs.ite (fun _ => ?_) fun _ => Errs.bind fun y =>
      Errs.ite (fun _ => hn _ _ _) fun _ => Errs.bind fun z => Errs.ite (fun _ => hn _ _ _) fun _ => places_fields p rd sk sd fuel _
    exact Errs.pure (err := fun x : List (Int × Dyn) × GoErr => x.2) fun _ he => nomatch he

theorem places_read (p : Proto π) (S : Schema) (L : FloatLib) (mem : List Nat → Nat) (msd : Int) (fuel : Nat) (path : List Nat) (sd : StructDef)
    (attrs : List (Int × Dyn)) : Errs (genReadInto p S L mem msd fuel path sd attrs) (·.2) (·.TellsRead sd) := by
  have hs : ∀ (a : List (Int × Dyn)) (r : GoErr),
      Errs (Pure.pure (a, r.map (excReadStruct sd.name)) : P π (List (Int × Dyn) × GoErr)) (·.2) (·.TellsRead sd) :=
    fun a r => places_return (fun e => .inl (at_readStruct _ e)) a r
  unfold genReadInto genReadBody
  refine Errs.bind fun x => ?_
  obtain ⟨_, x⟩ := x
  refine Errs.ite (fun _ => hs _ _) fun _ => ?_
  refine Errs.after (places_fields p _ _ sd fuel attrs) fun y hy => ?_
  obtain ⟨as, y⟩ := y
  refine Errs.ite (fun _ => ?_) fun _ => Errs.bind fun z => hs _ _
  exact Errs.pure (err := fun x : List (Int × Dyn) × GoErr => x.2) hy

end Thrift
