import Verif.Spec.NamedService
import Verif.Lemmas.JsonService
import Verif.Lemmas.JsonWide
/-!
# Services over the simple JSON protocol
-/

namespace Thrift
namespace JsonN
open JsonProtocol JsonSpec JsonW JsonR

variable {τ : Type} {E : JsonEnv τ} {S : Schema}

/-! ## The last value of a message -/

theorem follows_nelements2 (hL : Lawful E.L) {t : τ} {e : Ty} {rest : Bytes} (h : Follows E t 2 rest) :
    ∀ vs : Vals, NReadableV S e vs → Follows E t 3 (nelements E.L S e vs ++ 93 :: rest)
  | .nil, _ => Follows.of (Or.inr (Or.inr (Or.inl rfl))) (h.ready.imp_left fun h => by omega)
  | .cons v r, hv => by
    have := ntext_pos hL v e hv.1
    simp only [nelements, List.cons_append]
    exact Follows.of (Or.inl rfl) (Or.inl (by simp; omega))

theorem follows_npairs2 (hL : Lawful E.L) {t : τ} {ek ev : Ty} {rest : Bytes} (h : Follows E t 2 rest) :
    ∀ ps : Pairs, NReadableP S ek ev ps → Follows E t 3 (npairs E.L S ek ev ps ++ 93 :: rest)
  | .nil, _ => Follows.of (Or.inr (Or.inr (Or.inl rfl))) (h.ready.imp_left fun h => by omega)
  | .cons k v r, hv => by
    have := ntext_pos hL k ek hv.1
    simp only [npairs, List.cons_append]
    exact Follows.of (Or.inl rfl) (Or.inl (by simp; omega))

section
variable (hS : S.Ok) (hN : Nameable S)
include hS hN

/-- A value of two bytes or more needs two bytes after it. -/
theorem tdec_wide (hL : Lawful E.L) {t : τ} {dc : List JCtx} : ∀ (v : Val) (ty : Ty) (c : JCtx) (pc : List JCtx) (rest : Bytes) (s : Json τ),
    v.WF → NReadable S v ty → (ntext E.L S v ty).length + 8 < E.fuel → Follows E t 2 rest → 2 ≤ (ntext E.L S v ty).length →
    St E t dc (c :: pc) (sepOf c ++ (ntext E.L S v ty ++ rest)) s →
    ∃ s', St E t dc (JCtx.next c :: pc) rest s' ∧ TDec (simpleJson E) S v ty s s' []
  | .bool b, ty, c, pc, rest, s, _, hr, hf, h, h2, hs => by
    cases ty with
    | bool =>
      obtain ⟨s', h1, h2⟩ := (gets_bool b (by omega) ⟨h.delim, Or.inl h.one⟩).runs hs
      exact ⟨s', h1, h2⟩
    | _ => exact False.elim hr
  | .byte b, ty, c, pc, rest, s, _, hr, hf, h, h2, hs => by
    cases ty with
    | byte =>
      obtain ⟨s', h1, h2⟩ := (gets_byte_wide b (by simp only [ntext] at hf; omega) h h2).runs hs
      exact ⟨s', h1, h2⟩
    | _ => exact False.elim hr
  | .i16 b, ty, c, pc, rest, s, _, hr, hf, h, h2, hs => by
    cases ty with
    | i16 =>
      obtain ⟨s', h1, h2⟩ := (gets_i16_wide b (by simp only [ntext] at hf; omega) h h2).runs hs
      exact ⟨s', h1, h2⟩
    | _ => exact False.elim hr
  | .i32 b, ty, c, pc, rest, s, _, hr, hf, h, h2, hs => by
    cases ty with
    | i32 =>
      obtain ⟨s', h1, h2⟩ := (gets_i32_wide b (by simp only [ntext] at hf; omega) h h2).runs hs
      exact ⟨s', h1, h2⟩
    | enum _ =>
      obtain ⟨s', h1, h2⟩ := (gets_i32_wide b (by simp only [ntext] at hf; omega) h h2).runs hs
      exact ⟨s', h1, h2⟩
    | _ => exact False.elim hr
  | .i64 b, ty, c, pc, rest, s, _, hr, hf, h, h2, hs => by
    cases ty with
    | i64 =>
      obtain ⟨s', h1, h2⟩ := (gets_i64_wide b (by simp only [ntext] at hf; omega) h h2).runs hs
      exact ⟨s', h1, h2⟩
    | _ => exact False.elim hr
  | .double b, ty, c, pc, rest, s, _, hr, hf, h, h2, hs => by
    cases ty with
    | double =>
      rw [ntext] at hs hf h2
      obtain ⟨s', h1, h2⟩ := (gets_double_wide hL b hr (by omega) (by omega) h h2).runs hs
      exact ⟨s', h1, h2⟩
    | _ => exact False.elim hr
  | .str b, ty, c, pc, rest, s, _, hr, hf, h, _, hs => by
    cases ty with
    | string =>
      have e : ntext E.L S (.str b) .string = E.L.quote b := by simp [ntext]
      rw [e] at hs hf
      obtain ⟨s', h1, h2⟩ := (gets_string hL hr (by omega) h).runs hs
      exact ⟨s', h1, h2⟩
    | binary =>
      have e : ntext E.L S (.str b) .binary = JsonB.base64Text b := by simp [ntext, JsonB.base64Text, base64_eq]
      rw [e] at hs hf
      obtain ⟨s', h1, h2⟩ := (JsonB.gets_binary b (by omega) h).runs hs
      exact ⟨s', h1, h2⟩
    | _ => exact False.elim hr
  | .struct fs, ty, c, pc, rest, s, hw, hr, hf, h, _, hs => by
    cases ty with
    | struct k =>
      simp only [ntext] at hs hf
      simp only [List.length_cons, List.length_append] at hf
      have := nstruct_of (E := E) (fs := fs) (k := k) (rest := rest) (by omega) (by
        rcases h.ready with h' | h'
        · left; simp; omega
        · exact Or.inr h') (by simpa using hs) fun s₁ hs₁ =>
        tdec_fields hS hN hL fs k .objectFirst (c :: pc) rest s₁ (Or.inl rfl) hw hr (by rw [(nmembersIn_first S E.L _ fs).1]; omega)
          h.ready hs₁
      rwa [h.tight] at this
    | _ => exact False.elim hr
  | .map kt vt ps, ty, c, pc, rest, s, ⟨hk, hv, hl, hp⟩, hr, hf, h, _, hs => by
    cases ty with
    | map ek ev =>
      simp only [ntext] at hs hf
      simp only [List.length_cons, List.length_append] at hf
      obtain ⟨s₁, hs₁, r₁⟩ := (gets_nmapBegin (c := c) (pc := pc) kt vt hl (by omega)
        (follows_npairs2 hL h ps hr)).runs (s := s) (dc := dc) (by simpa using hs)
      obtain ⟨s₂, hs₂, r₂⟩ := tdec_pairs hS hN hL ps kt vt ek ev (c :: pc) (93 :: rest) s₁ hp hr (by omega)
        (Follows.of (Or.inr (Or.inr (Or.inl rfl))) (h.ready.imp_left fun h => by omega)) hs₁
      obtain ⟨s₃, hs₃, r₃⟩ := (gets_listEnd (E := E) (by omega)).runs hs₂
      rw [h.tight] at hs₃
      exact ⟨s₃, hs₃, s₁, s₂, [], [], [], r₁, r₂, r₃, rfl⟩
    | _ => exact False.elim hr
  | .set et vs, ty, c, pc, rest, s, ⟨ht, hl, hv⟩, hr, hf, h, _, hs => by
    cases ty with
    | set e =>
      simp only [ntext] at hs hf
      simp only [List.length_cons, List.length_append] at hf
      obtain ⟨s₁, hs₁, r₁⟩ := (gets_elemBegin (c := c) (pc := pc) et hl (by omega) (by omega)
        (follows_nelements2 hL h vs hr)).runs (s := s) (dc := dc) (by simpa using hs)
      obtain ⟨s₂, hs₂, r₂⟩ := tdec_vals hS hN hL vs et e (c :: pc) (93 :: rest) s₁ hv hr (by omega)
        (Follows.of (Or.inr (Or.inr (Or.inl rfl))) (h.ready.imp_left fun h => by omega)) hs₁
      obtain ⟨s₃, hs₃, r₃⟩ := (gets_listEnd (E := E) (by omega)).runs hs₂
      rw [h.tight] at hs₃
      exact ⟨s₃, hs₃, s₁, s₂, [], [], [], r₁, r₂, r₃, rfl⟩
    | _ => exact False.elim hr
  | .list et vs, ty, c, pc, rest, s, ⟨ht, hl, hv⟩, hr, hf, h, _, hs => by
    cases ty with
    | list e =>
      simp only [ntext] at hs hf
      simp only [List.length_cons, List.length_append] at hf
      obtain ⟨s₁, hs₁, r₁⟩ := (gets_elemBegin (c := c) (pc := pc) et hl (by omega) (by omega)
        (follows_nelements2 hL h vs hr)).runs (s := s) (dc := dc) (by simpa using hs)
      obtain ⟨s₂, hs₂, r₂⟩ := tdec_vals hS hN hL vs et e (c :: pc) (93 :: rest) s₁ hv hr (by omega)
        (Follows.of (Or.inr (Or.inr (Or.inl rfl))) (h.ready.imp_left fun h => by omega)) hs₁
      obtain ⟨s₃, hs₃, r₃⟩ := (gets_listEnd (E := E) (by omega)).runs hs₂
      rw [h.tight] at hs₃
      exact ⟨s₃, hs₃, s₁, s₂, [], [], [], r₁, r₂, r₃, rfl⟩
    | _ => exact False.elim hr

end

/-- There is a last value, of two bytes or more. -/
def LastWide (L : JsonLib) (S : Schema) (sd : StructDef) : Fields → Prop
  | .nil => False
  | .cons id v .nil => 2 ≤ (ntext L S v (fieldTy sd id)).length
  | .cons _ _ r => LastWide L S sd r

/-- Members of a struct with one byte after it. -/
theorem tdec_last (hS : S.Ok) (hN : Nameable S) (hL : Lawful E.L) {t : τ} {dc : List JCtx} : ∀ (fs : Fields) (k : Nat) (c : JCtx)
    (pc : List JCtx) (rest : Bytes) (s : Json τ),
    c = .objectFirst ∨ c = .nextKey → fs.WF → NReadableF S (S.structs k) fs → (nmembersIn S E.L (S.structs k) c fs).length + 8 < E.fuel →
    1 ≤ rest.length → LastWide E.L S (S.structs k) fs →
    St E t dc (c :: pc) (nmembersIn S E.L (S.structs k) c fs ++ 125 :: rest) s →
    ∃ s', St E t dc (afterFields c fs :: pc) (125 :: rest) s' ∧ TDecFields (simpleJson E) S (S.structs k) fs s s' []
  | .nil, k, c, pc, rest, s, hc, _, _, hf, _, hw, hs => False.elim hw
  | .cons id v fs, k, c, pc, rest, s, hc, ⟨hw, hws⟩, ⟨⟨m, hm, hid, hr⟩, hrs⟩, hf, h, hlw, hs => by
    subst hid
    have hb := byId_member (hS k) hm
    have hmem : nmembersIn S E.L (S.structs k) c (.cons m.id v fs) = sepOf c ++ (E.L.quote m.name ++ 58 :: (ntext E.L S v m.ty ++
        nmembersIn S E.L (S.structs k) .nextKey fs)) := by
      rw [nmembersIn, fieldName_of hb, fieldTy_of hb]
    rw [hmem] at hs hf
    simp only [List.length_cons, List.length_append] at hf
    have hp := ntext_pos hL v m.ty hr
    obtain ⟨s₁, hs₁, r₁⟩ := (gets_nfieldBegin (c := c) (pc := pc) (t := t) hL hc (hN k m hm).1 (by omega)
      (rest := ntext E.L S v m.ty ++ (nmembersIn S E.L (S.structs k) .nextKey fs ++ 125 :: rest))).runs (s := s) (dc := dc)
      (by simpa using hs)
    cases fs with
    | nil =>
      simp only [LastWide] at hlw
      rw [fieldTy_of hb] at hlw
      obtain ⟨s₂, hs₂, r₂⟩ := tdec_wide hS hN hL v m.ty .nextValue pc (nmembersIn S E.L (S.structs k) .nextKey .nil ++ 125 :: rest) s₁ hw hr
        (by omega) ⟨⟨125, rest, rfl, Or.inr (Or.inr (Or.inr rfl))⟩, Or.inl (by simp [nmembersIn]; omega)⟩ hlw hs₁
      obtain ⟨s', h1, h2⟩ := (gets_nfieldStop (E := E) (t := t) (c := .nextKey) (pc := pc) (rest := rest) (Or.inr rfl)).runs hs₂
      exact ⟨s', h1, m, _, s₁, s₂, s₂, [], [], [], [], hb, picks_name (hS k) hm, r₁, r₂, fun _ _ => rfl, ⟨_, resolve_stop _ _ _, h2⟩, rfl⟩
    | cons id' v' r' =>
      obtain ⟨s₂, hs₂, r₂⟩ := tdec_val hS hN hL v m.ty .nextValue pc
        (nmembersIn S E.L (S.structs k) .nextKey (.cons id' v' r') ++ 125 :: rest) s₁ hw hr
        (by omega) (Follows.of (Or.inl rfl) (Or.inl (by simp; omega))) hs₁
      obtain ⟨s₄, hs₄, r₄⟩ := tdec_last hS hN hL (.cons id' v' r') k .nextKey pc rest s₂ (Or.inr rfl) hws hrs (by omega) h hlw hs₂
      exact ⟨s₄, hs₄, m, _, s₁, s₂, s₂, [], [], [], [], hb, picks_name (hS k) hm, r₁, r₂, fun _ _ => rfl, r₄, rfl⟩

/-! ## Messages that end well -/

theorem number_one {x : Bytes} (h : IsNumber x) (h1 : x.length < 2) : ∃ d, IsDigit d ∧ x = [d] := by
  obtain ⟨sign, int, frac, exp, rfl, hs, hi, hf, he⟩ := h
  simp only [List.length_append] at h1
  have hint : 1 ≤ int.length ∧ ∀ b ∈ int, IsDigit b := by
    rcases hi with rfl | ⟨⟨h, h'⟩, _⟩
    · exact ⟨by simp, by intro b hb; rw [List.mem_singleton.1 hb]; constructor <;> decide⟩
    · exact ⟨List.length_pos_iff.2 h, h'⟩
  obtain ⟨hl, hd⟩ := hint
  have e1 : sign = [] := List.eq_nil_of_length_eq_zero (by omega)
  have e2 : frac = [] := List.eq_nil_of_length_eq_zero (by omega)
  have e3 : exp = [] := List.eq_nil_of_length_eq_zero (by omega)
  subst e1 e2 e3
  match int, hl, hd, h1 with
  | [d], _, hd, _ => exact ⟨d, hd d (by simp), by simp⟩
  | a :: b :: r, _, _, h => simp at h; omega

/-- A value of one byte is a digit. -/
theorem text_one (hL : Lawful E.L) {v : Val} {ty : Ty} (hr : NReadable S v ty) (h : (ntext E.L S v ty).length < 2) :
    ∃ d, IsDigit d ∧ ntext E.L S v ty = [d] := by
  cases v with
  | bool b => simp only [ntext] at h; cases b <;> exact absurd h (by decide)
  | byte b => simp only [ntext] at h ⊢; exact number_one (decimal_number _) h
  | i16 b => simp only [ntext] at h ⊢; exact number_one (decimal_number _) h
  | i32 b => simp only [ntext] at h ⊢; exact number_one (decimal_number _) h
  | i64 b => simp only [ntext] at h ⊢; exact number_one (decimal_number _) h
  | double b =>
    simp only [ntext] at h ⊢
    unfold doubleText at h ⊢
    split
    · rename_i hf
      rw [if_pos hf] at h
      exact number_one (hL.format_number b hf) h
    · rename_i hf
      rw [if_neg hf] at h
      exfalso
      revert h
      split
      · decide
      · split <;> decide
  | str b =>
    cases ty with
    | string =>
      obtain ⟨body, hq, _⟩ := hL.quote_string b hr
      simp only [ntext, hq] at h
      simp at h; omega
    | binary => simp [ntext, inQuotes] at h; omega
    | _ => exact False.elim hr
  | struct fs =>
    cases ty with
    | struct k => simp [ntext] at h; omega
    | _ => exact False.elim hr
  | map _ _ _ =>
    cases ty with
    | map _ _ => simp [ntext] at h; omega
    | _ => exact False.elim hr
  | set _ _ =>
    cases ty with
    | set _ => simp [ntext] at h; omega
    | _ => exact False.elim hr
  | list _ _ =>
    cases ty with
    | list _ => simp [ntext] at h; omega
    | _ => exact False.elim hr

theorem not_wide (hS : S.Ok) (hL : Lawful E.L) {k : Nat} : ∀ fs : Fields, fs ≠ .nil → NReadableF S (S.structs k) fs →
    ¬ LastWide E.L S (S.structs k) fs → ∃ p d, IsDigit d ∧ nmembers E.L S (S.structs k) fs = p ++ [58, d]
  | .nil, h, _, _ => absurd rfl h
  | .cons id v .nil, _, ⟨⟨m, hm, hid, hr⟩, _⟩, hw => by
    subst hid
    have hb := byId_member (hS k) hm
    simp only [LastWide] at hw
    rw [fieldTy_of hb] at hw
    obtain ⟨d, hd, e⟩ := text_one hL hr (by omega)
    refine ⟨E.L.quote (fieldName (S.structs k) m.id), d, hd, ?_⟩
    rw [nmembers, fieldTy_of hb, e]
  | .cons id v (.cons id' v' r), _, ⟨_, hrs⟩, hw => by
    obtain ⟨p, d, hd, e⟩ := not_wide hS hL (.cons id' v' r) nofun hrs hw
    refine ⟨E.L.quote (fieldName (S.structs k) id) ++ 58 :: (ntext E.L S v (fieldTy (S.structs k) id) ++ 44 :: p), d, hd, ?_⟩
    rw [nmembers, e]
    simp

theorem endsWell_digit (p : Bytes) {d : Byte} (hd : IsDigit d) : endsWell (p ++ [58, d, 125, 93]) = false := by
  have h1 := hd.1
  have h2 := hd.2
  unfold endsWell
  rw [List.reverse_append]
  show (match 93 :: 125 :: d :: 58 :: p.reverse with
    | 93 :: 125 :: 123 :: _ => false
    | 93 :: 125 :: d :: 58 :: _ => !(decide (48 ≤ d.toNat) && decide (d.toNat ≤ 57))
    | _ => true) = false
  split
  · rfl
  · rename_i h
    simp only [List.cons.injEq] at h
    rw [← h.2.2.1]
    simp [h1, h2]
  · rename_i h h'
    exact absurd rfl (h' d p.reverse)

theorem ends_wide (hS : S.Ok) (hL : Lawful E.L) {k : Nat} {fs : Fields} (hr : NReadableF S (S.structs k) fs) {name : Bytes} {ty : Byte} {q : I32}
    (h : endsWell (nmessage E.L name ty q (ntext E.L S (.struct fs) (.struct k))) = true) : LastWide E.L S (S.structs k) fs := by
  by_cases hn : fs = .nil
  · subst hn
    simp [endsWell, nmessage, ntext, nmembers] at h
  · by_cases hw : LastWide E.L S (S.structs k) fs
    · exact hw
    · obtain ⟨p, d, ⟨h1, h2⟩, e⟩ := not_wide hS hL fs hn hr hw
      exfalso
      have := endsWell_digit (91 :: (E.L.quote name ++ 44 :: (decimal ty.toNat ++ 44 :: (decimal q.toInt ++ 44 :: 123 :: p)))) ⟨h1, h2⟩
      rw [show 91 :: (E.L.quote name ++ 44 :: (decimal ty.toNat ++ 44 :: (decimal q.toInt ++ 44 :: 123 :: p))) ++ [58, d, 125, 93] =
        nmessage E.L name ty q (ntext E.L S (.struct fs) (.struct k)) by simp [nmessage, ntext, e], h] at this
      exact nomatch this

/-! ## Whole messages -/

theorem emits_nmessage (name : Bytes) (ty : TMessageType) (q : I32) (s : Json τ) (c : JCtx) (r : List JCtx) :
    Emits ((simpleJson E).writeMessageBegin name ty q) (s.at c r) (s.at .list (c :: r))
      (sepOf c ++ 91 :: (E.L.quote name ++ 44 :: (decimal (ty.setWidth 8).toNat ++ 44 :: decimal q.toInt))) := by
  refine (Emits.seq (emits_begin LBRACKET .listFirst s c r)
    (Emits.seq (emits_string E name s .listFirst (c :: r)) (Emits.seq (emits_byte E (ty.setWidth 8) s .list (c :: r) rfl)
      (emits_i32 E q s .list (c :: r) rfl)))).congr ?_
  simp [LBRACKET, sepOf]

theorem gets_nmessage (hL : Lawful E.L) {t : τ} {pc} {name : Bytes} (hn : Utf8 name) (ty : Byte) (q : I32) {rest : Bytes} (hr : 2 ≤ rest.length)
    (hf : (E.L.quote name).length + (decimal ty.toNat).length + (decimal q.toInt).length + 8 < E.fuel) :
    Gets E t (JsonProtocol.readMessageBegin E) (.toplevel :: pc)
      (91 :: (E.L.quote name ++ 44 :: (decimal ty.toNat ++ 44 :: (decimal q.toInt ++ 44 :: rest))))
      ((name, ty.setWidth 32, q), none) (.list :: .toplevel :: pc) (44 :: rest) := by
  have p1 : ∀ n : Int, 1 ≤ (decimal n).length := fun n => List.length_pos_iff.2 (number_ne_nil (decimal_number n))
  have p2 := p1 ty.toNat
  have p3 := p1 q.toInt
  unfold JsonProtocol.readMessageBegin
  refine Gets.bind (gets_listBegin (c := .toplevel) (by simp; omega)) ?_
  simp only [Option.isSome_none, Bool.false_eq_true, or_self, if_false]
  unfold readMessageRest
  refine Gets.bind (gets_string (c := .listFirst) hL hn (by omega) (rest := 44 :: (decimal ty.toNat ++ 44 :: (decimal q.toInt ++ 44 :: rest)))
    ⟨⟨44, _, rfl, Or.inl rfl⟩, Or.inl (by simp; omega)⟩) ?_
  simp only [Option.isSome_none, Bool.false_eq_true, if_false]
  refine Gets.bind (gets_byte (c := .list) ty (by omega) (rest := 44 :: (decimal q.toInt ++ 44 :: rest))
    (Follows.of (Or.inl rfl) (Or.inl (by simp; omega)))) ?_
  simp only [Option.isSome_none, Bool.false_eq_true, if_false]
  exact gets_map (gets_i32 (c := .list) q (by omega) (rest := 44 :: rest) (Follows.of (Or.inl rfl) (Or.inl hr)))
    (fun x : I32 => (name, ty.setWidth 32, x))

/-- The opening of a message, read by a new object. -/
theorem reads_nmessage (hL : Lawful E.L) {t t' : τ} {name : Bytes} (hn : Utf8 name) (ty : Byte) (q : I32) {body : Bytes} (hb : 1 ≤ body.length)
    (hf : (nmessage E.L name ty q body).length + 8 < E.fuel) (h : Arrives E t (nmessage E.L name ty q body) t') :
    ∃ s₁, Reads (simpleJson E).readMessageBegin (Json.newSimple t) s₁ [] (name, ty.setWidth 32, q) ∧
      St E t' [.toplevel] [.list, .toplevel] (44 :: (body ++ [93])) s₁ := by
  have ht : Tight (nmessage E.L name ty q body) := by rw [nmessage]; exact Tight.cons rfl
  have hlen : (nmessage E.L name ty q body).length = 1 + ((E.L.quote name).length + (1 +
      ((decimal ty.toNat).length + (1 + ((decimal q.toInt).length + (1 + (body.length + 1))))))) := by
    simp [nmessage]; omega
  obtain ⟨s₁, hs₁, r₁⟩ := (gets_nmessage (E := E) (t := t') (pc := []) hL hn ty q (rest := body ++ [93])
    (by simp; omega) (by omega)).runs (dc := [.toplevel])
    (s := ⟨[.toplevel], [.toplevel], nmessage E.L name ty q body, none, t'⟩) ⟨rfl, rfl, rfl, rfl, Or.inl rfl⟩
  refine ⟨s₁, Runs.transfer ?_ r₁, hs₁⟩
  show JsonProtocol.readMessageBegin E _ = JsonProtocol.readMessageBegin E _
  unfold JsonProtocol.readMessageBegin
  simp only [bind_apply]
  rw [show Json.newSimple t = ⟨[.toplevel], [.toplevel], [], none, t⟩ from rfl,
    listBegin_first h ht [] [.toplevel] (by omega)]

/-- A message with a struct, read by a new object. -/
theorem dec_nmessage (hS : S.Ok) (hN : Nameable S) (hL : Lawful E.L) {t t' : τ} {name : Bytes} (hn : Utf8 name) (ty : Byte) (q : I32)
    (fs : Fields) (k : Nat) (hw : fs.WF) (hr : NReadableF S (S.structs k) fs)
    (hf : (nmessage E.L name ty q (ntext E.L S (.struct fs) (.struct k))).length + 8 < E.fuel)
    (h : Arrives E t (nmessage E.L name ty q (ntext E.L S (.struct fs) (.struct k))) t') (hlw : LastWide E.L S (S.structs k) fs) :
    ∃ s₁ s₂ s₃, Reads (simpleJson E).readMessageBegin (Json.newSimple t) s₁ [] (name, ty.setWidth 32, q) ∧
      TDec (simpleJson E) S (.struct fs) (.struct k) s₁ s₂ [] ∧
      Runs (simpleJson E).readMessageEnd s₂ s₃ [] none ∧ St E t' [.toplevel] [.toplevel] [] s₃ := by
  have e : ntext E.L S (.struct fs) (.struct k) = 123 :: (nmembers E.L S (S.structs k) fs ++ [125]) := by simp [ntext]
  obtain ⟨s₁, r₁, hs₁⟩ := reads_nmessage hL hn ty q (by rw [e]; simp) hf h
  rw [e] at hs₁ hf
  have hlen : (nmembers E.L S (S.structs k) fs).length + 8 < E.fuel := by
    simp [nmessage] at hf; omega
  have hpos : 1 ≤ (nmembers E.L S (S.structs k) fs).length := by
    cases fs with
    | nil => exact False.elim hlw
    | cons id v r => cases r <;> simp [nmembers] <;> omega
  obtain ⟨s₂, hs₂, r₂⟩ := nstruct_of (E := E) (t := t') (dc := [.toplevel]) (c := .list) (pc := [.toplevel]) (fs := fs) (k := k) (rest := [93])
    (s := s₁) (by omega) (Or.inl (by simp; omega)) (by simpa [sepOf] using hs₁) fun s₁ hs₁ =>
    tdec_last hS hN hL fs k .objectFirst [.list, .toplevel] [93] s₁ (Or.inl rfl) hw hr (by rw [(nmembersIn_first S E.L _ fs).1]; omega)
      (by simp) hlw hs₁
  obtain ⟨s₃, hs₃, r₃⟩ := (gets_listEnd (E := E) (t := t') (by omega)).runs hs₂
  exact ⟨s₁, s₂, s₃, r₁, r₂, r₃, hs₃⟩

theorem St.newSimple {t' : τ} {s : Json τ} (h : St E t' [.toplevel] [.toplevel] [] s) (hd : ¬ Dry E t') : s = Json.newSimple t' := by
  obtain ⟨p, d, b, er, t⟩ := s
  obtain ⟨rfl, rfl, rfl, rfl, her⟩ := h
  have : er = none := her.resolve_right hd
  subst this
  rfl

/-! ## Application exceptions -/

/-- A string where the reader looks for the name of a field. -/
theorem gets_nname (hL : Lawful E.L) {t : τ} {c pc} {name : Bytes} (hn : Utf8 name) {rest : Bytes} (ht : Tight rest)
    (hf : (E.L.quote name).length < E.fuel) :
    Gets E t (JsonProtocol.readFieldBegin E) (c :: pc) (sepOf c ++ (E.L.quote name ++ rest))
      ((name, TT.GENERIC, -1), none) (JCtx.next c :: pc) rest := by
  obtain ⟨body, hq, hch⟩ := hL.quote_string name hn
  have hu := hL.unquote_quote name hn
  rw [hq] at hu hf ⊢
  simp at hf
  unfold JsonProtocol.readFieldBegin
  refine Gets.check (gets_pre (Tight.cons rfl)) ?_
  have key : Gets E t (α := (Bytes × TType × I16) × GoErr) (do
      let _ ← getByte E
      let (name, e) ← parseStringBody E
      if e.isSome then return ((name, TT.STOP, 0), e)
      return ((name, TT.GENERIC, -1), ← parsePostValue)) (c :: pc) (34 :: (body ++ [34]) ++ rest)
      ((name, TT.GENERIC, -1), none) (JCtx.next c :: pc) rest := by
    have e : 34 :: (body ++ [34]) ++ rest = 34 :: (body ++ 34 :: rest) := by simp
    rw [e]
    refine Gets.bind (gets_getByte E) (Gets.bind (gets_stringBody hch (by omega) hu _) ?_)
    simp only [Option.isSome_none, Bool.false_eq_true, if_false]
    exact Gets.bind (gets_post ht) (Gets.pure _ _ _)
  intro dc er
  obtain ⟨er', he', h'⟩ := key dc er
  exact ⟨er', he', h'⟩

/-- A number where the reader looks for the name of a field. -/
theorem gets_nrefused {t : τ} {c pc} {d : Byte} {rest : Bytes} (hd : IsDigit d ∨ d = 45) :
    Gets E t (JsonProtocol.readFieldBegin E) (c :: pc) (sepOf c ++ d :: rest) (([], TT.STOP, 0), some invalid) (c :: pc) (d :: rest) := by
  unfold JsonProtocol.readFieldBegin
  refine Gets.check (gets_pre (Tight.cons (isWs_digit hd))) ?_
  have h1 : d ≠ RBRACE := by
    rintro rfl
    rcases hd with ⟨_, h⟩ | h
    · exact absurd h (by decide)
    · exact absurd h (by decide)
  have h2 : d ≠ QUOTE := by
    rintro rfl
    rcases hd with ⟨h, _⟩ | h
    · exact absurd h (by decide)
    · exact absurd h (by decide)
  intro dc er
  refine ⟨er, Or.inl rfl, ?_⟩
  psimp [h1, h2]
  simp only [if_false]

theorem gets_appName {t : τ} {msd : Int} {fuel n : Nat} {x : AppExc} {pc pc₁ pc₂ b b₁ b₂} {name : Bytes} {r : AppExc × GoErr} (hf : 0 < fuel)
    (h : Gets E t (JsonProtocol.readFieldBegin E) pc b ((name, TT.GENERIC, -1), none) pc₁ b₁)
    (h' : Gets E t (appReadFields (simpleJson E) msd fuel n x) pc₁ b₁ r pc₂ b₂) :
    Gets E t (appReadFields (simpleJson E) msd fuel (n + 1) x) pc b r pc₂ b₂ := by
  obtain ⟨f, rfl⟩ : ∃ f, fuel = f + 1 := ⟨fuel - 1, by omega⟩
  unfold appReadFields
  refine Gets.bind h ?_
  exact h'

/-- The reader of application exceptions takes the message for a name and gives up at
the type. -/
theorem gets_exc (hL : Lawful E.L) {t : τ} {pc} {x : AppExc} (hx : Utf8 x.message) {msd : Int} {fuel : Nat} (hfu : 4 ≤ fuel) {rest : Bytes}
    (hf : (excText E.L x).length + 8 < E.fuel) :
    ∃ pc' b', Gets E t (appRead (simpleJson E) msd fuel) (.list :: pc) (44 :: (excText E.L x ++ rest)) (none, some invalid) pc' b' := by
  obtain ⟨c, r, hc, hcd⟩ := number_head (decimal_number x.type.toInt)
  obtain ⟨f, rfl⟩ : ∃ f, fuel = f + 1 + 1 + 1 + 1 := ⟨fuel - 4, by omega⟩
  have ut : Utf8 (ascii "type") := utf8_low (by decide)
  have um : Utf8 (ascii "message") := utf8_low (by decide)
  have last : ∀ (n : Nat) (c' : JCtx), JCtx.next c' = .nextValue → (E.L.quote (ascii "type")).length < E.fuel →
      Gets E t (appReadFields (simpleJson E) msd (f + 1 + 1 + 1 + 1) (n + 1 + 1) ⟨BitVec.ofInt 32 UNKNOWN_APPLICATION_EXCEPTION, []⟩)
        (c' :: .list :: pc) (sepOf c' ++ (E.L.quote (ascii "type") ++ 58 :: (decimal x.type.toInt ++ 125 :: rest)))
        (⟨BitVec.ofInt 32 UNKNOWN_APPLICATION_EXCEPTION, []⟩, some invalid) (.nextValue :: .list :: pc) (decimal x.type.toInt ++ 125 :: rest) := by
    intro n c' hc' hq
    have h1 := gets_nname (E := E) (t := t) (c := c') (pc := .list :: pc) hL ut (rest := 58 :: (decimal x.type.toInt ++ 125 :: rest))
      (Tight.cons rfl) hq
    rw [hc'] at h1
    refine gets_appName (by omega) h1 ?_
    have h2 := gets_nrefused (E := E) (t := t) (c := .nextValue) (pc := .list :: pc) (rest := r ++ 125 :: rest) hcd
    rw [hc]
    unfold appReadFields
    exact Gets.bind h2 (Gets.pure _ _ _)
  refine ⟨.nextValue :: .list :: pc, decimal x.type.toInt ++ 125 :: rest, ?_⟩
  unfold excText at hf ⊢
  unfold appRead
  by_cases hm : x.message.length > 0
  · simp only [if_pos hm] at hf ⊢
    simp at hf
    have h0 := gets_map (gets_objectStart (E := E) (t := t) (c := .list) (pc := pc)
      (x := E.L.quote (ascii "message") ++ 58 :: (E.L.quote x.message ++ 44 :: (E.L.quote (ascii "type") ++ 58 ::
        (decimal x.type.toInt ++ 125 :: rest)))) (by omega) (Or.inl (by simp; omega))) (fun _ : Bool => ([] : Bytes))
    have e : (44 : Byte) :: (123 :: ((E.L.quote (ascii "message") ++ 58 :: (E.L.quote x.message ++ [44])) ++
        (E.L.quote (ascii "type") ++ 58 :: (decimal x.type.toInt ++ [125]))) ++ rest) = sepOf .list ++ 123 :: (E.L.quote (ascii "message") ++
        58 :: (E.L.quote x.message ++ 44 :: (E.L.quote (ascii "type") ++ 58 :: (decimal x.type.toInt ++ 125 :: rest)))) := by
      simp [sepOf]
    rw [e]
    refine Gets.bind h0 ?_
    simp only [Option.isSome_none, Bool.false_eq_true, if_false]
    refine Gets.bind (gets_appName (by omega) (gets_nname (E := E) (t := t) (c := .objectFirst) (pc := .list :: pc) hL um
      (rest := 58 :: (E.L.quote x.message ++ 44 :: (E.L.quote (ascii "type") ++ 58 :: (decimal x.type.toInt ++ 125 :: rest)))) (Tight.cons rfl)
      (by omega)) (gets_appName (by omega) (gets_nname (E := E) (t := t) (c := .nextValue) (pc := .list :: pc) hL hx
      (rest := 44 :: (E.L.quote (ascii "type") ++ 58 :: (decimal x.type.toInt ++ 125 :: rest))) (Tight.cons rfl)
      (by omega)) (last f .nextKey rfl (by omega)))) ?_
    exact Gets.pure _ _ _
  · simp only [if_neg hm] at hf ⊢
    simp at hf
    have h0 := gets_map (gets_objectStart (E := E) (t := t) (c := .list) (pc := pc)
      (x := E.L.quote (ascii "type") ++ 58 :: (decimal x.type.toInt ++ 125 :: rest)) (by omega) (Or.inl (by
        have := List.length_pos_iff.2 (number_ne_nil (decimal_number x.type.toInt))
        simp; omega))) (fun _ : Bool => ([] : Bytes))
    have e : (44 : Byte) :: (123 :: (([] : Bytes) ++ (E.L.quote (ascii "type") ++ 58 :: (decimal x.type.toInt ++ [125]))) ++ rest) =
        sepOf .list ++ 123 :: (E.L.quote (ascii "type") ++ 58 :: (decimal x.type.toInt ++ 125 :: rest)) := by
      simp [sepOf]
    rw [e]
    refine Gets.bind h0 ?_
    simp only [Option.isSome_none, Bool.false_eq_true, if_false]
    exact Gets.bind (last (f + 1 + 1) .objectFirst rfl (by omega)) (Gets.pure _ _ _)

theorem emits_excType (x : AppExc) (s : Json τ) (c : JCtx) (hc : JCtx.next c = .nextValue) (r : List JCtx) :
    Emits (appWriteType (simpleJson E) x) (s.at c (.list :: r)) (s.at .list r)
      (sepOf c ++ (E.L.quote (ascii "type") ++ 58 :: (decimal x.type.toInt ++ [125]))) := by
  have e1 := emits_string E (ascii "type") s c (.list :: r)
  rw [hc] at e1
  refine (Emits.seq e1 (Emits.seq (emits_i32 E x.type s .nextValue (.list :: r) rfl) (Emits.seq (Emits.pure _) (Emits.seq (Emits.pure _)
    (emits_end RBRACE s .nextKey .list r))))).congr ?_
  simp [sepOf, RBRACE]

theorem emits_exc (x : AppExc) (s : Json τ) (r : List JCtx) :
    Emits (appWrite (simpleJson E) x) (s.at .list r) (s.at .list r) (44 :: excText E.L x) := by
  have e0 := emits_begin LBRACE .objectFirst s .list r
  unfold excText
  by_cases hm : x.message.length > 0
  · have e1 := emits_string E (ascii "message") s .objectFirst (.list :: r)
    have e2 := emits_string E x.message s .nextValue (.list :: r)
    refine (Emits.seq_ e0 (k := ite _ _ _) (b := E.L.quote (ascii "message") ++ 58 :: (E.L.quote x.message ++ 44 ::
      (E.L.quote (ascii "type") ++ 58 :: (decimal x.type.toInt ++ [125])))) ?_).congr ?_
    · rw [if_pos hm]
      refine (Emits.seq e1 (Emits.seq e2 (Emits.seq (Emits.pure _) (emits_excType (E := E) x s .nextKey rfl r)))).congr ?_
      simp [sepOf]
    · simp [hm, sepOf, LBRACE]
  · refine (Emits.seq_ e0 (k := ite _ _ _) (b := E.L.quote (ascii "type") ++ 58 :: (decimal x.type.toInt ++ [125])) ?_).congr ?_
    · rw [if_neg hm]
      exact (emits_excType (E := E) x s .objectFirst rfl r).congr (by simp [sepOf])
    · simp [hm, sepOf, LBRACE]

/-! ## Structs of messages -/

theorem emits_nresult (hS : S.Ok) (hN : Nameable S) (fuel k : Nat) (attrs : Attrs) (fs : Fields) (s : Json τ) (c : JCtx) (r : List JCtx)
    (hf : flatMembers S (flatVal true S fuel) attrs (pickResult attrs (S.structs k).sorted.reverse).toList = some fs) (hw : fs.WF) :
    Emits (genWriteResult (simpleJson E) S fuel (S.structs k) attrs) (s.at c r) (s.at (JCtx.next c) r)
      (sepOf c ++ ntext E.L S (.struct fs) (.struct k)) := by
  have hm := emits_nmembers (E := E) (S := S) (fl := flatVal true S fuel) (wr := genWriteVal (simpleJson E) S fuel) (sd := S.structs k) (hS k)
    (fun m hm => (hN k m hm).2)
    (fun fn sn t d v s r hf hv ht => emits_nval hS hN fuel fn sn t d v s .nextValue r hf hv ht rfl) attrs s .objectFirst (c :: r)
    (fun m hm => pickResult_mem hm) hf hw rfl
  have hm' : Emits (match pickResult attrs (S.structs k).sorted.reverse with
      | some m => genWriteMember (simpleJson E) S (genWriteVal (simpleJson E) S fuel) (S.structs k) attrs m
      | none => pure none) (s.at .objectFirst (c :: r)) (s.at (afterFields .objectFirst fs) (c :: r)) (nmembersIn S E.L (S.structs k) .objectFirst fs) := by
    revert hm
    cases pickResult attrs (S.structs k).sorted.reverse with
    | none => exact id
    | some m =>
      intro hm inp out
      have := hm inp out
      simp only [Option.toList_some, genWriteMembers] at this
      obtain ⟨s₁, t₁, h1, h2⟩ := seq_inv this
      simp only [P.run_pure, Prod.mk.injEq, Res.ok.injEq, true_and] at h2
      obtain ⟨rfl, rfl⟩ := h2
      exact h1
  unfold genWriteResult genWriteBody
  refine (Emits.seq (wrapErr_emits _ (emits_begin LBRACE .objectFirst s c r)) (Emits.seq hm'
    (Emits.seq (wrapErr_emits _ (Emits.pure _)) (wrapErr_emits _ (emits_end RBRACE s (afterFields .objectFirst fs) c r))))).congr ?_
  rw [(nmembersIn_first S E.L _ fs).1]
  simp [LBRACE, RBRACE, ntext]

end JsonN

open JsonSpec

variable {S : Schema} {L : FloatLib} {mem : List Nat → Nat} {msd : Int} {fuel : Nat}

/-- An exception that cannot be read. -/
theorem recv_lost {p : Proto π} {m : Method} {c : Client π} {i i₁ i₂ : π} {name : Bytes} {q : I32} {y : Option AppExc} {e : Err}
    (hi : c.input = some i) (h1 : Runs p.readMessageBegin i i₁ [] ((name, EXCEPTION, q), none)) (h2 : Runs (appRead p msd fuel) i₁ i₂ [] (y, some e)) :
    (Client.recv p S L mem msd fuel m).run duplex c ([], []) = (.ok ((none, some e), { c with input := some i₂ }), ([], [])) := by
  have r0 (x : Bytes × Bytes) : (Client.ensureInput : P (Client π) Unit).run duplex c x = (.ok ((), c), x) := by
    show (Client.ensureInput c : Prog _).run duplex x = _
    simp only [Client.ensureInput, hi]; rfl
  have e1 := h1 [] []
  have e2 := h2 [] []
  simp only [List.append_nil] at e1 e2
  unfold Client.recv
  rw [P.run_bind, r0, andThen_ok, P.run_bind, Client.run_inp _ _ i hi, e1]
  simp only [putBack_ok, andThen_ok, Option.isSome_none, Bool.false_eq_true, if_false, if_true, P.run_bind]
  rw [Client.run_inp _ _ i₁ rfl, e2]
  rfl

section named
variable {E : JsonEnv (List Bytes)}

theorem nmessage_long (L : JsonLib) (name : Bytes) (ty : Byte) (q : I32) (body : Bytes) : 4 ≤ (nmessage L name ty q body).length := by
  simp [nmessage]; omega

section
variable (hL : Lawful E.L) (hS : S.Ok) (hN : Nameable S)

/-! ## What is written -/

theorem named_emits {τ : Type} {E : JsonEnv τ} (t : τ) (name : Bytes) (ty : TMessageType) (q : I32) (body : Bytes) {w : P (Json τ) GoErr}
    (hw : Emits w ((Json.newSimple t).at .list [.toplevel]) ((Json.newSimple t).at .list [.toplevel]) (44 :: body)) :
    ∃ a b e s₁ s₂, Emits ((simpleJson E).writeMessageBegin name ty q) (Json.newSimple t) s₁ a ∧ Emits w s₁ s₂ b ∧
      Emits (simpleJson E).writeMessageEnd s₂ (Json.newSimple t) e ∧ a ++ (b ++ e) = nmessage E.L name (ty.setWidth 8) q body := by
  refine ⟨_, _, _, _, _, JsonN.emits_nmessage (E := E) name ty q (Json.newSimple t) .toplevel [], hw,
    JsonW.emits_end JsonProtocol.RBRACKET (Json.newSimple t) .list .toplevel [], ?_⟩
  simp [nmessage, JsonW.sepOf, JsonProtocol.RBRACKET]

include hS hN in
theorem named_request {m : Method} {a : Attrs} {fs : Fields} {c : Client (Json (List Bytes))} {o : Json (List Bytes)}
    (hf : c.factory = some (Json.newSimple [])) (ho : c.output = some o) (hw : fs.WF)
    (h : flatMembers S (flatVal true S fuel) a (S.structs m.args).sorted = some fs) :
    (Client.send (simpleJson E) S fuel m a).run duplex c ([], []) =
      (.ok (none, { c with seqId := c.seqId + 1, output := some (Json.newSimple []) }),
        ([], nmessage E.L m.name 1 (c.seqId + 1) (ntext E.L S (.struct fs) (.struct m.args)))) := by
  obtain ⟨x, b, e, s₁, s₂, h1, h2, h3, h4⟩ := named_emits (E := E) [] m.name CALL (c.seqId + 1) (ntext E.L S (.struct fs) (.struct m.args))
    (JsonN.emits_nstruct hS hN fuel m.args a fs (Json.newSimple []) .list [.toplevel] h hw)
  rw [send_alone hf ho h1 h2 h3, h4]
  rfl

include hS hN in
theorem named_sendReply {m : Method} {r : Attrs} {fs : Fields} (q : I32) (hw : fs.WF)
    (h : flatMembers S (flatVal true S fuel) r (pickResult r (S.structs m.result).sorted.reverse).toList = some fs) :
    Sends duplex (fun s => s.1) (fun s => s.2) (fun _ => []) (sendReply (simpleJson E) S fuel m r q) (Json.newSimple []) (Json.newSimple [])
      (nmessage E.L m.name 2 q (ntext E.L S (.struct fs) (.struct m.result))) none := by
  obtain ⟨x, b, e, s₁, s₂, h1, h2, h3, h4⟩ := named_emits (E := E) [] m.name REPLY q (ntext E.L S (.struct fs) (.struct m.result))
    (JsonN.emits_nresult hS hN fuel m.result r fs (Json.newSimple []) .list [.toplevel] h hw)
  have := duplex_endpoint.sends_reply h1 h2 h3
  rw [List.append_nil, h4] at this
  exact this

theorem named_sendException (name : Bytes) (x : AppExc) (q : I32) :
    Sends duplex (fun s => s.1) (fun s => s.2) (fun _ => []) (sendException (simpleJson E) name x q) (Json.newSimple []) (Json.newSimple [])
      (nmessage E.L name 3 q (excText E.L x)) () := by
  obtain ⟨a, b, e, s₁, s₂, h1, h2, h3, h4⟩ := named_emits (E := E) [] name EXCEPTION q (excText E.L x)
    (JsonN.emits_exc (E := E) x (Json.newSimple []) [.toplevel])
  have := duplex_endpoint.sends_exception h1 h2 h3
  rw [List.append_nil, h4] at this
  exact this

/-! ## What is read -/

include hS in
theorem named_object {k : Nat} {fs : Fields} {as' : Attrs} {s₁ s₂ : Json (List Bytes)} (hf : fs.size ≤ fuel)
    (hd : TDec (simpleJson E) S (.struct fs) (.struct k) s₁ s₂ [])
    (hb : buildFields S L mem fs [] (S.structs k) ((S.structs k).fresh S) = .ok as') :
    Runs (genRead (simpleJson E) S L mem msd fuel [] (S.structs k)) s₁ s₂ [] (as', none) := by
  have ho := TDec.genInto hS L mem msd fs fuel [] k ((S.structs k).fresh S) hf hd
  rw [hb] at ho
  exact ho

include hL hS hN in
/-- A new object, or one that has read all messages so far, reads the next one and is
as new. -/
theorem named_reads (hT : E.T = messages) (hF : 4104 < E.fuel) {name : Bytes} (hn : Utf8 name) (ty : Byte) (q : I32) (fs : Fields) (k : Nat)
    (hw : fs.WF) (hr : JsonN.NReadableF S (S.structs k) fs)
    (hfit : fitsNamed true (nmessage E.L name ty q (ntext E.L S (.struct fs) (.struct k))) = true) :
    ∃ s₁ s₂, Reads (simpleJson E).readMessageBegin (Json.newSimple [nmessage E.L name ty q (ntext E.L S (.struct fs) (.struct k))]) s₁ []
        (name, ty.setWidth 32, q) ∧
      TDec (simpleJson E) S (.struct fs) (.struct k) s₁ s₂ [] ∧ Runs (simpleJson E).readMessageEnd s₂ (Json.newSimple []) [] none := by
  simp only [fitsNamed, Bool.not_true, Bool.false_or, Bool.and_eq_true, decide_eq_true_eq] at hfit
  obtain ⟨hlen, hend⟩ := hfit
  obtain ⟨s₁, s₂, s₃, h1, h2, h3, h4⟩ := JsonN.dec_nmessage hS hN hL hn ty q fs k hw hr (by omega)
    (messages_arrive hT (nmessage_long ..) hlen) (JsonN.ends_wide hS hL hr hend)
  rw [JsonN.St.newSimple h4 (messages_live hT)] at h3
  exact ⟨s₁, s₂, h1, h2, h3⟩

include hS in
theorem named_args {k ptr : Nat} {attrs : Attrs} (hf : Fine S (.struct k) ((S.structs k).object ptr attrs))
    (hl : Legible ((S.structs k).object ptr attrs)) :
    ∃ fs N as', (∀ fuel, N ≤ fuel → flatMembers S (flatVal true S fuel) attrs (S.structs k).sorted = some fs) ∧ fs.WF ∧
      buildFields S L mem fs [] (S.structs k) ((S.structs k).fresh S) = .ok as' ∧
      SameAttrs (S.structs k) attrs as' ∧ JsonN.NReadableF S (S.structs k) fs := by
  obtain ⟨fs, N, as', h1, h2, h3, h4, h5⟩ := args_tree (L := L) (mem := mem) hS hf
  refine ⟨fs, N, as', h1, h2, h4, h5, ?_⟩
  cases hl with
  | struct _ _ _ _ _ _ hl =>
    exact JsonN.readable_members (JsonN.readable_val N) attrs hl (fun m hm => mem_sorted.mp hm) (h1 N (Nat.le_refl _))

include hS in
theorem named_result {k ptr : Nat} {r : Attrs} (hf : Fine S (.struct k) ((S.structs k).object ptr r))
    (hl : Legible ((S.structs k).object ptr r)) (hd : ResultDef (S.structs k)) (ho : OneOutcome S (S.structs k) r) :
    ∃ fs N r', (∀ fuel, N ≤ fuel → flatMembers S (flatVal true S fuel) r (pickResult r (S.structs k).sorted.reverse).toList = some fs) ∧
      fs.WF ∧ buildFields S L mem fs [] (S.structs k) ((S.structs k).fresh S) = .ok r' ∧
      SameAttrs (S.structs k) r r' ∧ JsonN.NReadableF S (S.structs k) fs := by
  obtain ⟨fs, N, r', h1, h2, h3, h4, h5⟩ := result_tree (L := L) (mem := mem) hS hf hd ho
  refine ⟨fs, N, r', h1, h2, h4, h5, ?_⟩
  cases hl with
  | struct _ _ _ _ _ _ hl =>
    exact JsonN.readable_members (JsonN.readable_val N) r hl (fun m hm => pickResult_mem hm) (h1 N (Nat.le_refl _))

end

/-! ## Conversations -/

/-- A client that has read all its messages. -/
def namedTalker (n : I32) : Client (Json (List Bytes)) := ⟨some (Json.newSimple []), some (Json.newSimple []), some (Json.newSimple []), n⟩

theorem named_conversed (hT : E.T = messages) (hL : Lawful E.L) (hF : 4104 < E.fuel) (hS : S.Ok) (hN : Nameable S) (sv : Service η) :
    ∀ (cs : List (Method × Attrs)) (h : η) (n : I32),
    (∀ c ∈ cs, JsonSound S sv c.1 c.2) → ∃ N, ∀ fuel, N ≤ fuel → ∃ rs e,
      converse (simpleJson E) S L mem msd fuel sv fitsNamed cs (namedTalker n) ⟨Json.newSimple [], Json.newSimple [], h⟩ = some (rs, e) ∧
        NConversed E.L S sv fitsNamed (fun _ _ _ res => res = (none, some JsonProtocol.invalid)) h cs rs e
  | [], h, n, _ => ⟨0, fun fuel _ => ⟨[], .finished, rfl, .finished h⟩⟩
  | (m, a) :: cs, h, n, hs => by
    have hm := hs (m, a) List.mem_cons_self
    obtain ⟨fs, N, as', h1, h2, h4, h5, h6⟩ := named_args (L := L) (mem := mem) hS hm.args hm.text
    rcases hh : sv.handle m h as' with ⟨⟨r, _ | x⟩, h'⟩
    · obtain ⟨f1, f2, f3⟩ := hm.fine h as' r h' hh
      obtain ⟨gs, M, r', g1, g2, g4, g5, g6⟩ := named_result (L := L) (mem := mem) hS f1 f3 hm.result f2
      obtain ⟨K, hK⟩ := named_conversed hT hL hF hS hN sv cs h' (n + 1) fun c hc => hs c (List.mem_cons_of_mem _ hc)
      refine ⟨max (max N M) (max (max fs.size gs.size) K), fun fuel hfu => ?_⟩
      have e1 := named_request (E := E) (S := S) (fuel := fuel) (m := m) (a := a) (c := namedTalker n) hS hN rfl rfl h2 (h1 fuel (by omega))
      cases hr : fitsNamed true (nmessage E.L m.name 1 (n + 1) (ntext E.L S (.struct fs) (.struct m.args)))
      · exact ⟨[], .unfit _, converse_request e1 hr, .request hr⟩
      obtain ⟨s₁, s₂, d1, d2, d3⟩ := named_reads hL hS hN hT hF hm.name 1 (n + 1) fs m.args h2 h6 hr
      have e2 := json_serves (duplex_endpoint.serves_known (S := S) (L := L) (mem := mem) (msd := msd) (fuel := fuel) (op := simpleJson E) d1 hm.known
        (duplex_endpoint.serves_reply (h := h) (named_object hS (by omega) d2 h4) d3 hh
          (by rw [hm.twoway]; exact named_sendReply hS hN (n + 1) g2 (g1 fuel (by omega)))))
      cases hq : fitsNamed true (nmessage E.L m.name 2 (n + 1) (ntext E.L S (.struct gs) (.struct m.result)))
      · exact ⟨[], .unfit _, converse_reply e1 hr (s := ⟨Json.newSimple [], Json.newSimple [], h⟩) e2 hq, .reply h5 hh hq⟩
      obtain ⟨t₁, t₂, k1, k2, k3⟩ := named_reads hL hS hN hT hF hm.name 2 (n + 1) gs m.result g2 g6 hq
      have e3 := recv_alone (m := m) (c := ⟨some (Json.newSimple []), some (Json.newSimple [nmessage E.L m.name 2 (n + 1)
        (ntext E.L S (.struct gs) (.struct m.result))]), some (Json.newSimple []), n + 1⟩)
        rfl (by decide) k1 (named_object (L := L) (mem := mem) (msd := msd) (fuel := fuel) hS (by omega) k2 g4) k3
      obtain ⟨rs, e, i1, i2⟩ := hK fuel (by omega)
      refine ⟨(some r', none) :: rs, e, ?_, .answered h5 hh ?_ i2⟩
      · rw [converse_call e1 hr (s := ⟨Json.newSimple [], Json.newSimple [], h⟩) e2 hq e3, if_pos rfl]
        show Option.map _ (converse (simpleJson E) S L mem msd fuel sv fitsNamed cs (namedTalker (n + 1)) _) = _
        rw [i1]
        rfl
      · rw [Returned, if_neg (by rw [hm.twoway]; decide)]
        exact ⟨r', rfl, g5⟩
    · obtain ⟨u1, u2⟩ := hm.message h as' r x h' hh
      have hu : Utf8 (internalError m.name x).message :=
        Utf8.append (Utf8.append (Utf8.append (utf8_low (by decide)) hm.name) (utf8_low (by decide))) u1
      refine ⟨max N (max fs.size 4), fun fuel hfu => ?_⟩
      have e1 := named_request (E := E) (S := S) (fuel := fuel) (m := m) (a := a) (c := namedTalker n) hS hN rfl rfl h2 (h1 fuel (by omega))
      cases hr : fitsNamed true (nmessage E.L m.name 1 (n + 1) (ntext E.L S (.struct fs) (.struct m.args)))
      · exact ⟨[], .unfit _, converse_request e1 hr, .request hr⟩
      obtain ⟨s₁, s₂, d1, d2, d3⟩ := named_reads hL hS hN hT hF hm.name 1 (n + 1) fs m.args h2 h6 hr
      have e2 := json_serves (duplex_endpoint.serves_known (S := S) (L := L) (mem := mem) (msd := msd) (fuel := fuel) (op := simpleJson E) d1 hm.known
        (duplex_endpoint.serves_failure (h := h) (named_object hS (by omega) d2 h4) d3 hh
          (named_sendException m.name (internalError m.name x) (n + 1))))
      cases hq : fitsNamed false (nmessage E.L m.name 3 (n + 1) (excText E.L (internalError m.name x)))
      · exact ⟨[], .unfit _, converse_reply e1 hr (s := ⟨Json.newSimple [], Json.newSimple [], h⟩) e2 hq, .exception h5 hh hq⟩
      have hlen : (nmessage E.L m.name 3 (n + 1) (excText E.L (internalError m.name x))).length ≤ 4096 := by
        simpa [fitsNamed] using hq
      obtain ⟨t₁, k1, k2⟩ := JsonN.reads_nmessage (name := m.name) hL hm.name 3 (n + 1) (body := excText E.L (internalError m.name x)) (by simp [excText]) (by omega)
        (messages_arrive hT (nmessage_long ..) hlen)
      obtain ⟨pc', b', k3⟩ := JsonN.gets_exc (E := E) (t := []) (pc := [.toplevel]) hL (x := internalError m.name x) hu (msd := msd) (fuel := fuel)
        (by omega) (rest := [93]) (by simp [nmessage] at hlen; omega)
      obtain ⟨t₂, _, k4⟩ := k3.runs k2
      have e3 := recv_lost (S := S) (L := L) (mem := mem) (m := m)
        (c := ⟨some (Json.newSimple []), some (Json.newSimple [nmessage E.L m.name 3 (n + 1) (excText E.L (internalError m.name x))]),
          some (Json.newSimple []), n + 1⟩) rfl k1 k4
      refine ⟨[(none, some JsonProtocol.invalid)], .refused, ?_, .refused h5 hh rfl⟩
      rw [converse_call e1 hr (s := ⟨Json.newSimple [], Json.newSimple [], h⟩) e2 hq e3]
      rfl

end named
end Thrift
