import Verif.Lemmas.JsonNamedRead
/-!
# Unknown members in documents of the simple JSON protocol
-/

namespace Thrift
namespace JsonN
open JsonProtocol JsonSpec JsonW JsonR

variable {τ : Type} {E : JsonEnv τ} {S : Schema}

theorem afterFields_next : ∀ fs : Fields, afterFields .nextKey fs = .nextKey
  | .nil => rfl
  | .cons _ _ r => afterFields_next r

/-- Known members and then an unknown one: the reader takes its name for the end of
the struct. -/
theorem tdec_unknown (hS : S.Ok) (hN : Nameable S) (hL : Lawful E.L) {t : τ} {dc : List JCtx} {name : Bytes} (hn : Utf8 name) {k : Nat}
    (hun : ∀ m ∈ (S.structs k).members, m.name ≠ name) (hid : ∀ m ∈ (S.structs k).members, m.id ≠ -1) {rest : Bytes}
    (hq : (E.L.quote name).length + 8 < E.fuel) :
    ∀ (fs : Fields) (c : JCtx) (pc : List JCtx) (s : Json τ), c = .objectFirst ∨ c = .nextKey → fs.WF → NReadableF S (S.structs k) fs →
      (nmembersIn S E.L (S.structs k) c fs).length + 8 < E.fuel →
      St E t dc (c :: pc) (nmembersIn S E.L (S.structs k) c fs ++ (sepOf (afterFields c fs) ++ (E.L.quote name ++ 58 :: rest))) s →
      ∃ s', St E t dc (.nextValue :: pc) (58 :: rest) s' ∧ TDecFields (simpleJson E) S (S.structs k) fs s s' []
  | .nil, c, pc, s, hc, _, _, _, hs => by
    obtain ⟨s', h1, h2⟩ := (gets_nfieldBegin (c := c) (pc := pc) (t := t) hL hc hn (by omega) (rest := rest)).runs (s := s) (dc := dc) (by
      simpa [nmembersIn, afterFields] using hs)
    exact ⟨s', h1, _, resolve_unknown hun hid, h2⟩
  | .cons id v fs, c, pc, s, hc, ⟨hw, hws⟩, ⟨⟨m, hm, hmid, hr⟩, hrs⟩, hf, hs => by
    subst hmid
    have hb := byId_member (hS k) hm
    have hmem : nmembersIn S E.L (S.structs k) c (.cons m.id v fs) = sepOf c ++ (E.L.quote m.name ++ 58 :: (ntext E.L S v m.ty ++
        nmembersIn S E.L (S.structs k) .nextKey fs)) := by
      rw [nmembersIn, fieldName_of hb, fieldTy_of hb]
    have hafter : afterFields c (.cons m.id v fs) = .nextKey := afterFields_next fs
    have hafter' := afterFields_next fs
    rw [hmem, hafter] at hs
    rw [hmem] at hf
    simp only [List.length_cons, List.length_append] at hf
    have hp := ntext_pos hL v m.ty hr
    obtain ⟨s₁, hs₁, r₁⟩ := (gets_nfieldBegin (c := c) (pc := pc) (t := t) hL hc (hN k m hm).1 (by omega)
      (rest := ntext E.L S v m.ty ++ (nmembersIn S E.L (S.structs k) .nextKey fs ++ (sepOf .nextKey ++ (E.L.quote name ++ 58 :: rest))))).runs
      (s := s) (dc := dc) (by simpa using hs)
    obtain ⟨body, hbody, _⟩ := hL.quote_string name hn
    obtain ⟨s₂, hs₂, r₂⟩ := tdec_val hS hN hL v m.ty .nextValue pc
      (nmembersIn S E.L (S.structs k) .nextKey fs ++ (sepOf .nextKey ++ (E.L.quote name ++ 58 :: rest))) s₁ hw hr
      (by omega) (by
        cases fs with
        | nil => exact Follows.of (Or.inl rfl) (Or.inl (by simp [hbody]; omega))
        | cons id' v' r' => exact Follows.of (Or.inl rfl) (Or.inl (by simp; omega))) hs₁
    obtain ⟨s₄, hs₄, r₄⟩ := tdec_unknown hS hN hL hn hun hid hq fs .nextKey pc s₂ (Or.inr rfl) hws hrs (by omega) (by rw [hafter']; exact hs₂)
    exact ⟨s₄, hs₄, m, _, s₁, s₂, s₂, [], [], [], [], hb, picks_name (hS k) hm, r₁, r₂, fun _ _ => rfl, r₄, rfl⟩

/-- The end of a struct is refused where a value is due. -/
theorem gets_endRefused {t : τ} {pc : List JCtx} {rest : Bytes} :
    Gets E t (parseObjectEnd E) (.nextValue :: pc) (58 :: rest) (some invalid) (.nextValue :: pc) (58 :: rest) := by
  unfold parseObjectEnd
  refine Gets.bind (gets_readIfNull E (Tight.cons rfl) (by simp)) ?_
  simp only [Bool.false_eq_true, if_false]
  refine Gets.bind gets_parseTop ?_
  exact Gets.pure _ _ _

theorem andThen_fst_panic {r : Res (α × π) × σ} (h : r.1 = .panic) (f : α → π → σ → Res (β × π) × σ) :
    andThen r f = (.panic, r.2) := by
  obtain ⟨_, _⟩ := r
  cases h
  rfl

theorem andThen_fst_stuck {r : Res (α × π) × σ} (h : r.1 = .stuck) (f : α → π → σ → Res (β × π) × σ) :
    andThen r f = (.stuck, r.2) := by
  obtain ⟨_, _⟩ := r
  cases h
  rfl

/-- A struct with an unknown member is refused. -/
theorem unknown_refused (hS : S.Ok) (hN : Nameable S) (hL : Lawful E.L) {t t' : τ} {name : Bytes} (hn : Utf8 name) {k : Nat}
    (hun : ∀ m ∈ (S.structs k).members, m.name ≠ name) (hid : ∀ m ∈ (S.structs k).members, m.id ≠ -1) {rest : Bytes}
    (fs : Fields) (hw : fs.WF) (hr : NReadableF S (S.structs k) fs) {doc : Bytes}
    (hdoc : doc = 123 :: (nmembersIn S E.L (S.structs k) .objectFirst fs ++ (sepOf (afterFields .objectFirst fs) ++ (E.L.quote name ++ 58 :: rest))))
    (hf : doc.length + 8 < E.fuel) (h : Arrives E t doc t') (hd : Dry E t') (L : FloatLib) (mem : List Nat → Nat) (msd : Int) (fuel : Nat)
    (path : List Nat) (attrs : List (Int × Dyn)) (hfu : fs.size ≤ fuel) (inp out : Bytes) {as' : List (Int × Dyn)} {e : GoErr} {s' : Json τ}
    {y : Bytes × Bytes}
    (hrun : (genReadInto (simpleJson E) S L mem msd fuel path (S.structs k) attrs).run duplex (Json.newSimple t) (inp, out) =
      (.ok ((as', e), s'), y)) : e ≠ none := by
  have hlen := congrArg List.length hdoc
  simp only [List.length_cons, List.length_append] at hlen
  have ht : Tight doc := by rw [hdoc]; exact Tight.cons rfl
  obtain ⟨s₁, hs₁, r₁⟩ := (gets_map (gets_objectStart (E := E) (t := t') (c := .toplevel) (pc := [])
    (x := nmembersIn S E.L (S.structs k) .objectFirst fs ++ (sepOf (afterFields .objectFirst fs) ++ (E.L.quote name ++ 58 :: rest)))
    (by omega) (Or.inr hd)) (fun _ : Bool => ([] : Bytes))).runs (dc := [.toplevel])
    (s := ⟨[.toplevel], [.toplevel], doc, none, t'⟩) ⟨rfl, rfl, by rw [hdoc]; simp [sepOf], rfl, Or.inl rfl⟩
  have r₁ : Reads (simpleJson E).readStructBegin (Json.newSimple t) s₁ [] [] := by
    refine Runs.transfer ?_ r₁
    show readStructBegin E _ = readStructBegin E _
    unfold readStructBegin
    simp only [bind_apply]
    rw [show Json.newSimple t = ⟨[.toplevel], [.toplevel], [], none, t⟩ from rfl, objectStart_first h ht [] [.toplevel] (by omega)]
  obtain ⟨s₂, hs₂, r₂⟩ := tdec_unknown hS hN hL hn hun hid (by omega) fs .objectFirst [.toplevel] s₁ (Or.inl rfl) hw hr (by omega) hs₁
  obtain ⟨s₃, _, r₃⟩ := (gets_endRefused (E := E)).runs hs₂
  have ho := TDecFields.gen hS L mem msd fs fuel fuel path (S.structs k) attrs hfu hfu r₂ inp out
  have hrun : ((simpleJson E).readStructBegin >>= fun x => if x.2.isSome then pure (attrs, x.2.map (excReadStruct (S.structs k).name)) else
    genReadFields (simpleJson E) (fun fn sn m => genReadVal (simpleJson E) S L mem msd fuel (m.id.toNat :: path) fn sn m.ty)
      (skipDefaultDepth (simpleJson E) msd fuel) (S.structs k) fuel attrs >>= fun x => if x.2.isSome then pure (x.1, x.2) else
        (simpleJson E).readStructEnd >>= fun e => pure (x.1, e.map (excReadStruct (S.structs k).name)) :
      P (Json τ) (List (Int × Dyn) × GoErr)).run duplex (Json.newSimple t) (inp, out) = (.ok ((as', e), s'), y) := hrun
  have hb := r₁ inp out
  rw [List.nil_append] at hb
  rw [P.run_bind, hb] at hrun
  simp only [andThen, Option.isSome_none, Bool.false_eq_true, if_false, List.nil_append] at hrun ho
  rw [P.run_bind] at hrun
  cases hbuild : buildFields S L mem fs path (S.structs k) attrs with
  | ok as =>
    rw [hbuild] at ho
    simp only at ho
    rw [ho] at hrun
    simp only [andThen, Option.isSome_none, Bool.false_eq_true, if_false] at hrun
    have he : (simpleJson E).readStructEnd.run duplex s₂ (inp, out) = (.ok (some invalid, s₃), (inp, out)) := r₃ inp out
    rw [P.run_bind, he] at hrun
    intro hc
    subst hc
    cases hrun
  | panic =>
    rw [hbuild] at ho
    rw [andThen_fst_panic ho] at hrun
    cases hrun
  | stuck =>
    rw [hbuild] at ho
    rw [andThen_fst_stuck ho] at hrun
    cases hrun

end JsonN
end Thrift
