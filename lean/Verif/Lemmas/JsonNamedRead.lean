import Verif.Lemmas.JsonNamedWrite
import Verif.Lemmas.JsonDoc
import Verif.Lemmas.GenNamed
/-!
# Generated readers over the simple JSON protocol
-/

namespace Thrift
namespace JsonN
open JsonProtocol JsonSpec JsonW JsonR

variable {τ : Type} {E : JsonEnv τ} {S : Schema}

mutual
/-- The value is of the declared type and can be told from its text. -/
def NReadable (S : Schema) : Val → Ty → Prop
  | .bool _, .bool | .byte _, .byte | .i16 _, .i16 | .i32 _, .i32 | .i32 _, .enum _ | .i64 _, .i64 => True
  | .double v, .double => F64.isNaN v = true → v = 0x7ff8000000000001
  | .str b, .string => Utf8 b
  | .str _, .binary => True
  | .struct fs, .struct k => NReadableF S (S.structs k) fs
  | .map _ _ ps, .map kt vt => NReadableP S kt vt ps
  | .set _ vs, .set e => NReadableV S e vs
  | .list _ vs, .list e => NReadableV S e vs
  | _, _ => False
def NReadableF (S : Schema) (sd : StructDef) : Fields → Prop
  | .nil => True
  | .cons id v r => (∃ m, m ∈ sd.members ∧ m.id = id ∧ NReadable S v m.ty) ∧ NReadableF S sd r
def NReadableV (S : Schema) (e : Ty) : Vals → Prop
  | .nil => True
  | .cons v r => NReadable S v e ∧ NReadableV S e r
def NReadableP (S : Schema) (kt vt : Ty) : Pairs → Prop
  | .nil => True
  | .cons k v r => NReadable S k kt ∧ NReadable S v vt ∧ NReadableP S kt vt r
end

/-! ## Legible objects give such values -/

theorem readable_vals {fl : Dyn → Option Val} {e : Ty} (h : ∀ d v, fl d = some v → Legible d → NReadable S v e) :
    ∀ {ds : List Dyn} {vs : Vals}, flatVals fl ds = some vs → (∀ d ∈ ds, Legible d) → NReadableV S e vs
  | [], vs, hf, _ => by simp only [flatVals, Option.some.injEq] at hf; subst hf; trivial
  | d :: ds, vs, hf, hl => by
    simp only [flatVals] at hf
    split at hf
    · rename_i v r h1 h2
      simp only [Option.some.injEq] at hf; subst hf
      exact ⟨h d v h1 (hl d (by simp)), readable_vals h h2 fun x hx => hl x (by simp [hx])⟩
    · cases hf

theorem readable_pairs {fk fv : Dyn → Option Val} {ek ev : Ty} (hk : ∀ d v, fk d = some v → Legible d → NReadable S v ek)
    (hv : ∀ d v, fv d = some v → Legible d → NReadable S v ev) :
    ∀ {ds : List (Dyn × Dyn)} {ps : Pairs}, flatPairs fk fv ds = some ps → (∀ d ∈ ds, Legible d.1) → (∀ d ∈ ds, Legible d.2) →
      NReadableP S ek ev ps
  | [], vs, hf, _, _ => by simp only [flatPairs, Option.some.injEq] at hf; subst hf; trivial
  | (a, b) :: ds, vs, hf, h1, h2 => by
    simp only [flatPairs] at hf
    split at hf
    · rename_i v r e1 e2 e3
      simp only [Option.some.injEq] at hf; subst hf
      exact ⟨hk a _ e1 (h1 (a, b) (by simp)), hv b _ e2 (h2 (a, b) (by simp)),
        readable_pairs hk hv e3 (fun x hx => h1 x (by simp [hx])) fun x hx => h2 x (by simp [hx])⟩
    · cases hf

theorem readable_members {fl : Ty → Dyn → Option Val} {sd : StructDef} (h : ∀ t d v, fl t d = some v → Legible d → NReadable S v t)
    (attrs : List (Int × Dyn)) (hl : ∀ i, Legible (attributeOf attrs i)) :
    ∀ {ms : List Member} {fs : Fields}, (∀ m ∈ ms, m ∈ sd.members) → flatMembers S fl attrs ms = some fs → NReadableF S sd fs
  | [], fs, _, hf => by simp only [flatMembers, Option.some.injEq] at hf; subst hf; trivial
  | m :: ms, fs, hm, hf => by
    have hms : ∀ x ∈ ms, x ∈ sd.members := fun x hx => hm x (List.mem_cons_of_mem _ hx)
    simp only [flatMembers] at hf
    split at hf
    · split at hf
      · rename_i v rs h1 h2
        simp only [Option.some.injEq] at hf; subst hf
        exact ⟨⟨m, hm m List.mem_cons_self, rfl, h _ _ _ h1 (hl _)⟩, readable_members h attrs hl hms h2⟩
      · cases hf
    · exact readable_members h attrs hl hms hf

theorem mem_iterated {kt : TType} {es xs : List (Dyn × Dyn)} (h : iterated kt es = some xs) : ∀ x ∈ xs, ∃ y ∈ es, y.1 = x.1 ∧ y.2 = x.2 := by
  unfold iterated at h
  split at h
  · simp only [Option.some.injEq] at h; subst h; intro x hx; cases hx
  · split at h
    · simp only [Option.some.injEq] at h; subst h; exact fun x hx => ⟨x, hx, rfl, rfl⟩
    · cases h

theorem readable_val : ∀ (fuel : Nat) (ty : Ty) (d : Dyn) (v : Val), flatVal true S fuel ty d = some v → Legible d → NReadable S v ty := by
  intro fuel
  induction fuel with
  | zero => intro ty d v h; cases h
  | succ fuel ih =>
    intro ty d v h hl
    simp only [flatVal] at h
    split at h
    · simp only [Option.some.injEq] at h; subst h; trivial
    · simp only [Option.some.injEq] at h; subst h; trivial
    · simp only [Option.some.injEq] at h; subst h; trivial
    · simp only [Option.some.injEq] at h; subst h; trivial
    · simp only [Option.some.injEq] at h; subst h; trivial
    · simp only [Option.some.injEq] at h; subst h; cases hl; assumption
    · simp only [Option.some.injEq] at h; subst h; cases hl; assumption
    · simp only [if_true, Option.some.injEq] at h; subst h; trivial
    · split at h
      · simp only [Option.some.injEq] at h; subst h; trivial
      · cases h
    · split at h
      · simp only [Option.map_eq_some_iff] at h
        obtain ⟨fs, hfs, rfl⟩ := h
        cases hl with
        | struct _ _ _ _ _ _ hl => exact readable_members ih _ hl (fun m hm => mem_sorted.mp hm) hfs
      · cases h
    · split at h
      · simp only [Option.map_eq_some_iff] at h
        obtain ⟨vs, hvs, rfl⟩ := h
        cases hl with
        | list _ _ _ hl => exact readable_vals (ih _) hvs hl
      · cases h
    · split at h
      · simp only [Option.map_eq_some_iff] at h
        obtain ⟨vs, hvs, rfl⟩ := h
        cases hl with
        | set _ _ _ _ hl => exact readable_vals (ih _) hvs hl
      · cases h
    · split at h
      · split at h
        · rename_i es hit
          split at h
          · simp only [Option.map_eq_some_iff] at h
            obtain ⟨ps, hps, rfl⟩ := h
            cases hl with
            | map _ _ _ _ _ _ _ l1 l2 =>
              refine readable_pairs (ih _) (ih _) hps (fun x hx => ?_) fun x hx => ?_
              · obtain ⟨y, hy, e1, _⟩ := mem_iterated hit x hx
                exact e1 ▸ l1 y hy
              · obtain ⟨y, hy, _, e2⟩ := mem_iterated hit x hx
                exact e2 ▸ l2 y hy
          · cases h
        · cases h
      · cases h
    · cases h

/-! ## Headers -/

theorem gets_nmapBegin {t : τ} {c pc} (kt vt : Byte) {n : Nat} (hn : n < 2 ^ 31) {rest : Bytes}
    (hf : (decimal kt.toNat).length + (decimal vt.toNat).length + (decimal n).length < E.fuel) (h : Follows E t 3 rest) :
    Gets E t (JsonProtocol.readMapBegin E) (c :: pc)
      (sepOf c ++ 91 :: (decimal kt.toNat ++ 44 :: (decimal vt.toNat ++ 44 :: (decimal n ++ rest))))
      ((kt, vt, (n : Int)), none) (.list :: c :: pc) rest := by
  have pos : ∀ n : Int, 1 ≤ (decimal n).length := fun n => List.length_pos_iff.2 (number_ne_nil (decimal_number n))
  have p1 := pos n
  have p2 := pos kt.toNat
  have p3 := pos vt.toNat
  unfold JsonProtocol.readMapBegin
  refine Gets.bind (gets_listBegin (by simp; omega)) ?_
  simp only [Option.isSome_none, Bool.false_eq_true, or_self, if_false]
  refine Gets.bind (gets_byte (c := .listFirst) kt (by omega) (rest := 44 :: (decimal vt.toNat ++ 44 :: (decimal n ++ rest)))
    (Follows.of (Or.inl rfl) (Or.inl (by simp; omega)))) ?_
  simp only [Option.isSome_none, Bool.false_eq_true, if_false]
  refine Gets.bind (gets_byte (c := .list) vt (by omega) (rest := 44 :: (decimal n ++ rest))
    (Follows.of (Or.inl rfl) (Or.inl (by have := h.one; simp; omega)))) ?_
  simp only [Option.isSome_none, Bool.false_eq_true, if_false]
  have := gets_map (gets_sized (c := .list) (pc := c :: pc) n hn (by omega) h) (fun x : I64 => (kt, vt, x.toInt))
  simp only [toInt_ofNat64 hn] at this
  exact this

theorem gets_nfieldBegin (hL : Lawful E.L) {t : τ} {c pc} (hc : c = .objectFirst ∨ c = .nextKey) {name : Bytes} (hn : Utf8 name)
    {rest : Bytes} (hf : (E.L.quote name).length < E.fuel) :
    Gets E t (JsonProtocol.readFieldBegin E) (c :: pc) (sepOf c ++ (E.L.quote name ++ 58 :: rest))
      ((name, TT.GENERIC, -1), none) (.nextValue :: pc) (58 :: rest) := by
  obtain ⟨body, hq, hch⟩ := hL.quote_string name hn
  have hu := hL.unquote_quote name hn
  rw [hq] at hu hf ⊢
  simp at hf
  have hnext : JCtx.next c = .nextValue := by rcases hc with rfl | rfl <;> rfl
  unfold JsonProtocol.readFieldBegin
  refine Gets.check (gets_pre (Tight.cons rfl)) ?_
  have key : Gets E t (α := (Bytes × TType × I16) × GoErr) (do
      let _ ← getByte E
      let (name, e) ← parseStringBody E
      if e.isSome then return ((name, TT.STOP, 0), e)
      return ((name, TT.GENERIC, -1), ← parsePostValue)) (c :: pc) (34 :: (body ++ [34]) ++ 58 :: rest)
      ((name, TT.GENERIC, -1), none) (.nextValue :: pc) (58 :: rest) := by
    have e : 34 :: (body ++ [34]) ++ 58 :: rest = 34 :: (body ++ 34 :: 58 :: rest) := by simp
    rw [e]
    refine Gets.bind (gets_getByte E) (Gets.bind (gets_stringBody hch (by omega) hu _) ?_)
    simp only [Option.isSome_none, Bool.false_eq_true, if_false]
    have := gets_post (E := E) (t := t) (c := c) (pc := pc) (b := 58 :: rest) (Tight.cons rfl)
    rw [hnext] at this
    exact Gets.bind this (Gets.pure _ _ _)
  intro dc er
  obtain ⟨er', he', h'⟩ := key dc er
  exact ⟨er', he', h'⟩

theorem gets_nfieldStop {t : τ} {c pc} {rest : Bytes} (hc : c = .objectFirst ∨ c = .nextKey) :
    Gets E t (JsonProtocol.readFieldBegin E) (c :: pc) (125 :: rest) (([], TT.STOP, 0), none) (c :: pc) (125 :: rest) := by
  intro dc er
  rcases hc with rfl | rfl <;> exact ⟨er, Or.inl rfl, rfl⟩

/-! ## Values -/

theorem ntext_pos (hL : Lawful L) (v : Val) (ty : Ty) (hv : NReadable S v ty) : 1 ≤ (ntext L S v ty).length := by
  have pos : ∀ n : Int, 1 ≤ (decimal n).length := fun n => List.length_pos_iff.2 (number_ne_nil (decimal_number n))
  cases v with
  | bool b => cases b <;> simp [ntext, ascii]
  | byte _ => exact pos _
  | i16 _ => exact pos _
  | i32 _ => exact pos _
  | i64 _ => exact pos _
  | double x => rw [ntext]; exact List.length_pos_iff.2 (doubleText_ne hL x)
  | str b =>
    cases ty with
    | string =>
      rw [ntext]
      · obtain ⟨body, hq, _⟩ := hL.quote_string b hv
        rw [hq]; simp
      · simp
    | binary => simp [ntext, inQuotes]
    | _ => exact hv.elim
  | struct _ => cases ty <;> first | exact hv.elim | simp [ntext]
  | map _ _ _ => cases ty <;> first | exact hv.elim | simp [ntext]
  | set _ _ => cases ty <;> first | exact hv.elim | simp [ntext]
  | list _ _ => cases ty <;> first | exact hv.elim | simp [ntext]

theorem follows_nelements (hL : Lawful E.L) {t : τ} {e : Ty} {rest : Bytes} (h : Follows E t 3 rest) :
    ∀ vs : Vals, NReadableV S e vs → Follows E t 3 (nelements E.L S e vs ++ 93 :: rest)
  | .nil, _ => Follows.of (Or.inr (Or.inr (Or.inl rfl))) (h.ready.imp_left fun h => by omega)
  | .cons v r, hv => by
    have := ntext_pos hL v e hv.1
    simp only [nelements, List.cons_append]
    exact Follows.of (Or.inl rfl) (Or.inl (by simp; omega))

theorem follows_npairs (hL : Lawful E.L) {t : τ} {ek ev : Ty} {rest : Bytes} (h : Follows E t 3 rest) :
    ∀ ps : Pairs, NReadableP S ek ev ps → Follows E t 3 (npairs E.L S ek ev ps ++ 93 :: rest)
  | .nil, _ => Follows.of (Or.inr (Or.inr (Or.inl rfl))) (h.ready.imp_left fun h => by omega)
  | .cons k v r, hv => by
    have := ntext_pos hL k ek hv.1
    simp only [npairs, List.cons_append]
    exact Follows.of (Or.inl rfl) (Or.inl (by simp; omega))

/-- A struct can be followed by anything. -/
theorem nstruct_of {t : τ} {dc : List JCtx} {fs : Fields} {k : Nat} {c : JCtx} {pc : List JCtx} {rest : Bytes} {s : Json τ} (hf : 0 < E.fuel)
    (hm : 3 ≤ (nmembers E.L S (S.structs k) fs ++ 125 :: rest).length ∨ Dry E t)
    (hs : St E t dc (c :: pc) (sepOf c ++ 123 :: (nmembers E.L S (S.structs k) fs ++ 125 :: rest)) s)
    (hfs : ∀ s₁, St E t dc (.objectFirst :: c :: pc) (nmembersIn S E.L (S.structs k) .objectFirst fs ++ 125 :: rest) s₁ →
      ∃ s₂, St E t dc (afterFields .objectFirst fs :: c :: pc) (125 :: rest) s₂ ∧ TDecFields (simpleJson E) S (S.structs k) fs s₁ s₂ []) :
    ∃ s', St E t dc (JCtx.next c :: pc) (rest.dropWhile isWs) s' ∧ TDec (simpleJson E) S (.struct fs) (.struct k) s s' [] := by
  have hb := gets_map (gets_objectStart (E := E) (t := t) (c := c) (pc := pc) hf hm) (fun _ : Bool => ([] : Bytes))
  obtain ⟨s₁, hs₁, r₁⟩ := hb.runs hs
  obtain ⟨s₂, hs₂, r₂⟩ := hfs s₁ (by rw [(nmembersIn_first S E.L _ fs).1]; exact hs₁)
  obtain ⟨s₃, hs₃, r₃⟩ := (gets_objectEnd (E := E) hf (afterFields_key fs (Or.inl rfl))).runs hs₂
  exact ⟨s₃, hs₃, s₁, s₂, [], [], [], [], r₁, r₂, r₃, rfl⟩

variable (hS : S.Ok) (hN : Nameable S)
set_option linter.unusedSectionVars false
include hS hN

mutual
theorem tdec_val (hL : Lawful E.L) {t : τ} {dc : List JCtx} : ∀ (v : Val) (ty : Ty) (c : JCtx) (pc : List JCtx) (rest : Bytes) (s : Json τ),
    v.WF → NReadable S v ty → (ntext E.L S v ty).length + 8 < E.fuel → Follows E t 3 rest →
    St E t dc (c :: pc) (sepOf c ++ (ntext E.L S v ty ++ rest)) s →
    ∃ s', St E t dc (JCtx.next c :: pc) rest s' ∧ TDec (simpleJson E) S v ty s s' []
  | .bool b, ty, c, pc, rest, s, _, hr, hf, h, hs => by
    cases ty with
    | bool =>
      obtain ⟨s', h1, h2⟩ := (gets_bool b (by omega) h.weaken).runs hs
      exact ⟨s', h1, h2⟩
    | _ => exact False.elim hr
  | .byte b, ty, c, pc, rest, s, _, hr, hf, h, hs => by
    cases ty with
    | byte =>
      obtain ⟨s', h1, h2⟩ := (gets_byte b (by simp only [ntext] at hf; omega) h).runs hs
      exact ⟨s', h1, h2⟩
    | _ => exact False.elim hr
  | .i16 b, ty, c, pc, rest, s, _, hr, hf, h, hs => by
    cases ty with
    | i16 =>
      obtain ⟨s', h1, h2⟩ := (gets_i16 b (by simp only [ntext] at hf; omega) h).runs hs
      exact ⟨s', h1, h2⟩
    | _ => exact False.elim hr
  | .i32 b, ty, c, pc, rest, s, _, hr, hf, h, hs => by
    cases ty with
    | i32 =>
      obtain ⟨s', h1, h2⟩ := (gets_i32 b (by simp only [ntext] at hf; omega) h).runs hs
      exact ⟨s', h1, h2⟩
    | enum _ =>
      obtain ⟨s', h1, h2⟩ := (gets_i32 b (by simp only [ntext] at hf; omega) h).runs hs
      exact ⟨s', h1, h2⟩
    | _ => exact False.elim hr
  | .i64 b, ty, c, pc, rest, s, _, hr, hf, h, hs => by
    cases ty with
    | i64 =>
      obtain ⟨s', h1, h2⟩ := (gets_i64 b (by simp only [ntext] at hf; omega) h).runs hs
      exact ⟨s', h1, h2⟩
    | _ => exact False.elim hr
  | .double b, ty, c, pc, rest, s, _, hr, hf, h, hs => by
    cases ty with
    | double =>
      rw [ntext] at hs hf
      obtain ⟨s', h1, h2⟩ := (gets_double hL b hr (by omega) (by omega) h).runs hs
      exact ⟨s', h1, h2⟩
    | _ => exact False.elim hr
  | .str b, ty, c, pc, rest, s, _, hr, hf, h, hs => by
    cases ty with
    | string =>
      have e : ntext E.L S (.str b) .string = E.L.quote b := by simp [ntext]
      rw [e] at hs hf
      obtain ⟨s', h1, h2⟩ := (gets_string hL hr (by omega) ⟨h.delim, h.ready.imp_left fun h => by omega⟩).runs hs
      exact ⟨s', h1, h2⟩
    | binary =>
      have e : ntext E.L S (.str b) .binary = JsonB.base64Text b := by simp [ntext, JsonB.base64Text, base64_eq]
      rw [e] at hs hf
      obtain ⟨s', h1, h2⟩ := (JsonB.gets_binary b (by omega) ⟨h.delim, h.ready.imp_left fun h => by omega⟩).runs hs
      exact ⟨s', h1, h2⟩
    | _ => exact False.elim hr
  | .struct fs, ty, c, pc, rest, s, hw, hr, hf, h, hs => by
    cases ty with
    | struct k =>
      simp only [ntext] at hs hf
      simp only [List.length_cons, List.length_append] at hf
      have := nstruct_of (E := E) (fs := fs) (k := k) (rest := rest) (by omega) (by
        rcases h.ready with h' | h'
        · left; simp; omega
        · exact Or.inr h') (by simpa using hs) fun s₁ hs₁ =>
        tdec_fields hL fs k .objectFirst (c :: pc) rest s₁ (Or.inl rfl) hw hr (by rw [(nmembersIn_first S E.L _ fs).1]; omega)
          (by
            rcases h.ready with h' | h'
            · left; omega
            · exact Or.inr h') hs₁
      rwa [h.tight] at this
    | _ => exact False.elim hr
  | .map kt vt ps, ty, c, pc, rest, s, ⟨hk, hv, hl, hp⟩, hr, hf, h, hs => by
    cases ty with
    | map ek ev =>
      simp only [ntext] at hs hf
      simp only [List.length_cons, List.length_append] at hf
      obtain ⟨s₁, hs₁, r₁⟩ := (gets_nmapBegin (c := c) (pc := pc) kt vt hl (by omega)
        (follows_npairs hL h ps hr)).runs (s := s) (dc := dc) (by simpa using hs)
      obtain ⟨s₂, hs₂, r₂⟩ := tdec_pairs hL ps kt vt ek ev (c :: pc) (93 :: rest) s₁ hp hr (by omega)
        (Follows.of (Or.inr (Or.inr (Or.inl rfl))) (h.ready.imp_left fun h => by omega)) hs₁
      obtain ⟨s₃, hs₃, r₃⟩ := (gets_listEnd (E := E) (by omega)).runs hs₂
      rw [h.tight] at hs₃
      exact ⟨s₃, hs₃, s₁, s₂, [], [], [], r₁, r₂, r₃, rfl⟩
    | _ => exact False.elim hr
  | .set et vs, ty, c, pc, rest, s, ⟨ht, hl, hv⟩, hr, hf, h, hs => by
    cases ty with
    | set e =>
      simp only [ntext] at hs hf
      simp only [List.length_cons, List.length_append] at hf
      obtain ⟨s₁, hs₁, r₁⟩ := (gets_elemBegin (c := c) (pc := pc) et hl (by omega) (by omega)
        (follows_nelements hL h vs hr)).runs (s := s) (dc := dc) (by simpa using hs)
      obtain ⟨s₂, hs₂, r₂⟩ := tdec_vals hL vs et e (c :: pc) (93 :: rest) s₁ hv hr (by omega)
        (Follows.of (Or.inr (Or.inr (Or.inl rfl))) (h.ready.imp_left fun h => by omega)) hs₁
      obtain ⟨s₃, hs₃, r₃⟩ := (gets_listEnd (E := E) (by omega)).runs hs₂
      rw [h.tight] at hs₃
      exact ⟨s₃, hs₃, s₁, s₂, [], [], [], r₁, r₂, r₃, rfl⟩
    | _ => exact False.elim hr
  | .list et vs, ty, c, pc, rest, s, ⟨ht, hl, hv⟩, hr, hf, h, hs => by
    cases ty with
    | list e =>
      simp only [ntext] at hs hf
      simp only [List.length_cons, List.length_append] at hf
      obtain ⟨s₁, hs₁, r₁⟩ := (gets_elemBegin (c := c) (pc := pc) et hl (by omega) (by omega)
        (follows_nelements hL h vs hr)).runs (s := s) (dc := dc) (by simpa using hs)
      obtain ⟨s₂, hs₂, r₂⟩ := tdec_vals hL vs et e (c :: pc) (93 :: rest) s₁ hv hr (by omega)
        (Follows.of (Or.inr (Or.inr (Or.inl rfl))) (h.ready.imp_left fun h => by omega)) hs₁
      obtain ⟨s₃, hs₃, r₃⟩ := (gets_listEnd (E := E) (by omega)).runs hs₂
      rw [h.tight] at hs₃
      exact ⟨s₃, hs₃, s₁, s₂, [], [], [], r₁, r₂, r₃, rfl⟩
    | _ => exact False.elim hr
theorem tdec_fields (hL : Lawful E.L) {t : τ} {dc : List JCtx} : ∀ (fs : Fields) (k : Nat) (c : JCtx) (pc : List JCtx) (rest : Bytes) (s : Json τ),
    c = .objectFirst ∨ c = .nextKey → fs.WF → NReadableF S (S.structs k) fs → (nmembersIn S E.L (S.structs k) c fs).length + 8 < E.fuel →
    (2 ≤ rest.length ∨ Dry E t) →
    St E t dc (c :: pc) (nmembersIn S E.L (S.structs k) c fs ++ 125 :: rest) s →
    ∃ s', St E t dc (afterFields c fs :: pc) (125 :: rest) s' ∧ TDecFields (simpleJson E) S (S.structs k) fs s s' []
  | .nil, k, c, pc, rest, s, hc, _, _, hf, _, hs => by
    obtain ⟨s', h1, h2⟩ := (gets_nfieldStop (E := E) hc).runs hs
    exact ⟨s', h1, _, resolve_stop _ _ _, h2⟩
  | .cons id v fs, k, c, pc, rest, s, hc, ⟨hw, hws⟩, ⟨⟨m, hm, hid, hr⟩, hrs⟩, hf, h, hs => by
    subst hid
    have hb := byId_member (hS k) hm
    have hmem : nmembersIn S E.L (S.structs k) c (.cons m.id v fs) = sepOf c ++ (E.L.quote m.name ++ 58 :: (ntext E.L S v m.ty ++
        nmembersIn S E.L (S.structs k) .nextKey fs)) := by
      rw [nmembersIn, fieldName_of hb, fieldTy_of hb]
    rw [hmem] at hs hf
    simp only [List.length_cons, List.length_append] at hf
    have hp := ntext_pos hL v m.ty hr
    obtain ⟨s₁, hs₁, r₁⟩ := (gets_nfieldBegin (c := c) (pc := pc) (t := t) hL hc (hN k m hm).1 (by omega)
      (rest := ntext E.L S v m.ty ++ (nmembersIn S E.L (S.structs k) .nextKey fs ++ 125 :: rest))).runs (s := s) (dc := dc)
      (by simpa using hs)
    obtain ⟨s₂, hs₂, r₂⟩ := tdec_val hL v m.ty .nextValue pc (nmembersIn S E.L (S.structs k) .nextKey fs ++ 125 :: rest) s₁ hw hr
      (by omega) (by
        cases fs with
        | nil => exact Follows.of (Or.inr (Or.inr (Or.inr rfl))) h
        | cons id' v' r' => exact Follows.of (Or.inl rfl) (Or.inl (by simp; omega))) hs₁
    obtain ⟨s₄, hs₄, r₄⟩ := tdec_fields hL fs k .nextKey pc rest s₂ (Or.inr rfl) hws hrs (by omega) h hs₂
    exact ⟨s₄, hs₄, m, _, s₁, s₂, s₂, [], [], [], [], hb, picks_name (hS k) hm, r₁, r₂, fun _ _ => rfl, r₄, rfl⟩
theorem tdec_vals (hL : Lawful E.L) {t : τ} {dc : List JCtx} : ∀ (vs : Vals) (et : Byte) (e : Ty) (pc : List JCtx) (rest : Bytes) (s : Json τ),
    vs.WF et → NReadableV S e vs → (nelements E.L S e vs).length + 8 < E.fuel → Follows E t 3 rest →
    St E t dc (.list :: pc) (nelements E.L S e vs ++ rest) s →
    ∃ s', St E t dc (.list :: pc) rest s' ∧ TDecVals (simpleJson E) S e vs s s' []
  | .nil, _, _, _, _, s, _, _, _, _, hs => ⟨s, hs, rfl, rfl⟩
  | .cons v vs, et, e, pc, rest, s, ⟨ht, hw, hws⟩, ⟨hr, hrs⟩, hf, h, hs => by
    rw [nelements] at hs hf
    simp only [List.length_cons, List.length_append] at hf
    obtain ⟨s₁, hs₁, r₁⟩ := tdec_val hL v e .list pc (nelements E.L S e vs ++ rest) s hw hr (by omega) (by
      cases vs with
      | nil => exact h
      | cons v' vs' =>
        have := ntext_pos hL v' e hrs.1
        have := h.one
        simp only [nelements, List.cons_append]
        exact Follows.of (Or.inl rfl) (Or.inl (by simp; omega))) (by simpa [sepOf] using hs)
    obtain ⟨s₂, hs₂, r₂⟩ := tdec_vals hL vs et e pc rest s₁ hws hrs (by omega) h hs₁
    exact ⟨s₂, hs₂, s₁, [], [], r₁, r₂, rfl⟩
theorem tdec_pairs (hL : Lawful E.L) {t : τ} {dc : List JCtx} : ∀ (ps : Pairs) (kt vt : Byte) (ek ev : Ty) (pc : List JCtx) (rest : Bytes) (s : Json τ),
    ps.WF kt vt → NReadableP S ek ev ps → (npairs E.L S ek ev ps).length + 8 < E.fuel → Follows E t 3 rest →
    St E t dc (.list :: pc) (npairs E.L S ek ev ps ++ rest) s →
    ∃ s', St E t dc (.list :: pc) rest s' ∧ TDecPairs (simpleJson E) S ek ev ps s s' []
  | .nil, _, _, _, _, _, _, s, _, _, _, _, hs => ⟨s, hs, rfl, rfl⟩
  | .cons k v ps, kt, vt, ek, ev, pc, rest, s, ⟨hkt, hvt, hwk, hwv, hws⟩, ⟨hrk, hrv, hrs⟩, hf, h, hs => by
    rw [npairs] at hs hf
    simp only [List.length_cons, List.length_append] at hf
    have hp := ntext_pos hL v ev hrv
    have hone := h.one
    obtain ⟨s₁, hs₁, r₁⟩ := tdec_val hL k ek .list pc (44 :: (ntext E.L S v ev ++ (npairs E.L S ek ev ps ++ rest))) s hwk hrk (by omega)
      (Follows.of (Or.inl rfl) (Or.inl (by simp; omega))) (by simpa [sepOf] using hs)
    obtain ⟨s₂, hs₂, r₂⟩ := tdec_val hL v ev .list pc (npairs E.L S ek ev ps ++ rest) s₁ hwv hrv (by omega) (by
      cases ps with
      | nil => exact h
      | cons k' v' ps' =>
        have := ntext_pos hL k' ek hrs.1
        simp only [npairs, List.cons_append]
        exact Follows.of (Or.inl rfl) (Or.inl (by simp; omega))) hs₁
    obtain ⟨s₃, hs₃, r₃⟩ := tdec_pairs hL ps kt vt ek ev pc rest s₂ hws hrs (by omega) h hs₂
    exact ⟨s₃, hs₃, s₁, s₂, [], [], [], r₁, r₂, r₃, rfl⟩
end

/-- A document with one struct and white space after it, read by a new object. -/
theorem tdec_document (hL : Lawful E.L) {t t' : τ} (fs : Fields) (k : Nat) (hw : fs.WF) (hr : NReadableF S (S.structs k) fs) {ws : Bytes}
    (hws : ∀ b ∈ ws, isWs b = true) (hf : (ntext E.L S (.struct fs) (.struct k)).length + 8 < E.fuel)
    (h : Arrives E t (ntext E.L S (.struct fs) (.struct k) ++ ws) t') (hd : Dry E t') :
    ∃ s', St E t' [.toplevel] [.toplevel] [] s' ∧ TDec (simpleJson E) S (.struct fs) (.struct k) (Json.newSimple t) s' [] := by
  have e : ntext E.L S (.struct fs) (.struct k) = 123 :: (nmembers E.L S (S.structs k) fs ++ [125]) := by simp [ntext]
  rw [e] at h hf
  have ht : Tight (123 :: (nmembers E.L S (S.structs k) fs ++ [125]) ++ ws) := Tight.cons rfl
  simp only [List.length_cons, List.length_append] at hf
  obtain ⟨s', hs', s₁, s₂, a, b, c, n, r₁, r₂, r₃, e⟩ := nstruct_of (E := E) (S := S) (t := t') (dc := [.toplevel]) (fs := fs) (k := k)
    (c := .toplevel) (pc := []) (rest := ws)
    (s := ⟨[.toplevel], [.toplevel], 123 :: (nmembers E.L S (S.structs k) fs ++ [125]) ++ ws, none, t'⟩) (by omega) (Or.inr hd)
    ⟨rfl, rfl, by simp [sepOf], rfl, Or.inl rfl⟩ fun s₁ hs₁ =>
      tdec_fields hS hN hL fs k .objectFirst [.toplevel] ws s₁ (Or.inl rfl) hw hr (by rw [(nmembersIn_first S E.L _ fs).1]; omega)
        (Or.inr hd) hs₁
  rw [dropWhile_all hws] at hs'
  refine ⟨s', hs', s₁, s₂, a, b, c, n, Runs.transfer ?_ r₁, r₂, r₃, e⟩
  show readStructBegin E _ = readStructBegin E _
  unfold readStructBegin
  simp only [bind_apply]
  rw [show Json.newSimple t = ⟨[.toplevel], [.toplevel], [], none, t⟩ from rfl,
    objectStart_first h ht [] [.toplevel] (by omega)]

end JsonN
end Thrift
