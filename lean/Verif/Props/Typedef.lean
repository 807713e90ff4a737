import Verif.Model.Typedef
import Verif.Props.Package
import Verif.Lemmas.Dyn
import Verif.Props.Containers
/-!
# C178 … C181: typedefs and exceptions in the generated code
-/

namespace Thrift.Emit

/-! ## C178: the code for a field has the right types -/

/-- C178: Go accepts the types in the code that reads and writes a field. -/
def C178_statement : Prop := ∀ t : TTy, ∀ c ∈ fieldChecks t, c.ok

/-- A typedef of a struct is a pointer type with a name, and has no methods. -/
theorem C178_violated : ¬ C178_statement := fun h =>
  absurd (h (.typedef (ascii "Owner") (.struct (ascii "Person"))) (.call
    (.named (ascii "Owner") (.ptr (ascii "Person"))) (ascii "Write")) (by decide +kernel)) (by decide +kernel)

/-- Is it a struct, without looking through typedefs? -/
def TTy.isStruct : TTy → Bool
  | .struct _ => true
  | _ => false

/-- There is no typedef of a struct in the type. -/
def TTy.plain : TTy → Bool
  | .typedef _ t => !t.behind.isStruct && t.plain
  | .list e | .set e => e.plain
  | .map k e => k.plain && e.plain
  | _ => true

/-- The text begins with a letter or underscore. -/
def startsName : Bytes → Bool
  | c :: _ => isAlpha c || c = 95
  | [] => false

/-- The typedefs in the type have names that begin with a letter or underscore. -/
def TTy.wf : TTy → Bool
  | .typedef n t => startsName n && t.wf
  | .list e | .set e => e.wf
  | .map k e => k.wf && e.wf
  | _ => true

theorem wf_typedef {n : Bytes} {t : TTy} (h : (TTy.typedef n t).wf = true) : startsName n = true ∧ t.wf = true :=
  Bool.and_eq_true_iff.1 h

theorem wf_map {k e : TTy} (h : (TTy.map k e).wf = true) : k.wf = true ∧ e.wf = true :=
  Bool.and_eq_true_iff.1 h

theorem goType_underlying : ∀ t : TTy, (goType t).underlying = (goType t.behind).underlying
  | .typedef n t => by
    rw [goType]
    split
    · exact goType_underlying t
    · exact goType_underlying t
  | .bool | .byte | .i16 | .i32 | .i64 | .double | .string | .binary | .enum _ | .struct _ | .list _ | .set _
  | .map _ _ => rfl

theorem behind_behind : ∀ t : TTy, t.behind.behind = t.behind
  | .typedef _ t => behind_behind t
  | .bool | .byte | .i16 | .i32 | .i64 | .double | .string | .binary | .enum _ | .struct _ | .list _ | .set _
  | .map _ _ => rfl

theorem upper_first : ∀ c : Byte, (isAlpha c || c = 95) = true → upper c ≠ 42 := by decide +kernel

/-- A typedef that stands for a struct has a type by name. -/
theorem goType_struct : ∀ (n : Bytes) (t : TTy), (TTy.typedef n t).wf → t.behind.isStruct →
    ∃ m d, goType (.typedef n t) = .named m d
  | n, .typedef m t, h, hs => by
    rw [goType]
    split
    · exact goType_struct m t (wf_typedef h).2 hs
    · exact ⟨_, _, rfl⟩
  | n, .struct s, h, _ => by
    rw [goType, if_neg]
    · exact ⟨_, _, rfl⟩
    · cases n with
      | nil => cases h
      | cons c r =>
        intro e
        have h1 : (isAlpha c || c = 95) = true := (wf_typedef h).1
        exact upper_first c h1 (List.cons.inj e).1.symm

/-- What a variable must be for the code that reads into it. -/
def Fits (v : GoTy) (t : TTy) : Prop :=
  match t.behind with
  | .struct n => v = .ptr (publicize n)
  | .list _ => v.underlying = .tlist
  | .set _ => v.underlying = .tset
  | .map _ _ => v.underlying = .tmap
  | _ => v = goType t

theorem fits_elemVar (e : TTy) : Fits (readChecks.elemVar e) e := by
  unfold Fits readChecks.elemVar
  cases e.behind <;> rfl

theorem assignable_self (a : GoTy) : a.assignable a = true := by simp [GoTy.assignable]

theorem not_ptr {v : GoTy} {u : GoTy} (h : v.underlying = u) (hu : ∀ n, u ≠ .ptr n) : ∀ n, v ≠ .ptr n := by
  rintro n rfl
  exact hu n h.symm

/-- The methods of the library's container interfaces. -/
def libMethod (u : GoTy) (m : Bytes) : Bool :=
  match u with
  | .tlist => m = ascii "Len" || m = ascii "Push" || m = ascii "Iter"
  | .tset => m = ascii "Len" || m = ascii "Add" || m = ascii "Front"
  | .tmap => m = ascii "Len" || m = ascii "Set" || m = ascii "Iter"
  | _ => false

theorem method_lib {v : GoTy} (h : ∀ n, v ≠ .ptr n) (m : Bytes) : v.method m = libMethod v.underlying m := by
  cases v <;> first | rfl | exact absurd rfl (h _)

theorem method_of {v u : GoTy} (h : v.underlying = u) (hp : ∀ n, u ≠ .ptr n) (m : Bytes) :
    v.method m = libMethod u m := by
  rw [method_lib (not_ptr h hp), h]

theorem lib_assign {v u : GoTy} (h : v.underlying = u) (hu : u = .tlist ∨ u = .tset ∨ u = .tmap) :
    u.assignable v = true := by
  have : v.interface = true := by
    unfold GoTy.interface; rw [h]; rcases hu with rfl | rfl | rfl <;> rfl
  have h2 : u.underlying = v.underlying := by rw [h]; rcases hu with rfl | rfl | rfl <;> rfl
  simp [GoTy.assignable, this, h2]

theorem readChecks_ok : ∀ (t : TTy) (v : GoTy), Fits v t → ∀ c ∈ readChecks v t, c.ok = true
  | .struct n, v, h => by
    have h : v = .ptr (publicize n) := h
    subst h
    intro c hc
    simp only [readChecks, List.mem_cons, List.not_mem_nil, or_false] at hc
    rcases hc with rfl | rfl
    · exact assignable_self _
    · rfl
  | .list e, v, h => by
    have h : v.underlying = .tlist := h
    intro c hc
    simp only [readChecks, List.cons_append, List.mem_cons, List.mem_append, List.not_mem_nil, or_false] at hc
    rcases hc with rfl | hc | rfl
    · exact lib_assign h (.inl rfl)
    · exact readChecks_ok e _ (fits_elemVar e) c hc
    · show v.method _ = true
      rw [method_of h (by intro n; simp)]; decide +kernel
  | .set e, v, h => by
    have h : v.underlying = .tset := h
    intro c hc
    simp only [readChecks, List.cons_append, List.mem_cons, List.mem_append, List.not_mem_nil, or_false] at hc
    rcases hc with rfl | hc | rfl
    · exact lib_assign h (.inr (.inl rfl))
    · exact readChecks_ok e _ (fits_elemVar e) c hc
    · show v.method _ = true
      rw [method_of h (by intro n; simp)]; decide +kernel
  | .map k e, v, h => by
    have h : v.underlying = .tmap := h
    intro c hc
    simp only [readChecks, List.cons_append, List.mem_cons, List.mem_append, List.not_mem_nil, or_false] at hc
    rcases hc with rfl | (hc | hc) | rfl
    · exact lib_assign h (.inr (.inr rfl))
    · exact readChecks_ok k _ (fits_elemVar k) c hc
    · exact readChecks_ok e _ (fits_elemVar e) c hc
    · show v.method _ = true
      rw [method_of h (by intro n; simp)]; decide +kernel
  | .enum n, v, h => by
    have h : v = goType (.enum n) := h
    subst h
    intro c hc
    simp only [readChecks, List.mem_cons, List.not_mem_nil, or_false] at hc
    rcases hc with rfl | rfl
    · rfl
    · exact assignable_self _
  | .typedef n t, v, h => by
    have ih := readChecks_ok t v
    rw [readChecks]
    unfold Fits at h ih
    rw [show (TTy.typedef n t).behind = t.behind from rfl] at h
    have hu := goType_underlying (.typedef n t)
    rw [show (TTy.typedef n t).behind = t.behind from rfl] at hu
    have hb := behind_behind t
    have main : ∀ b : TTy, b = t.behind → v = goType (.typedef n t) →
        (wireTy b).convertible (goType (.typedef n t)) = true →
        ∀ c ∈ [Check.convert (wireTy b) (goType (.typedef n t)), .assign (goType (.typedef n t)) v], c.ok = true := by
      intro b _ hv hc c hm
      simp only [List.mem_cons, List.not_mem_nil, or_false] at hm
      rcases hm with rfl | rfl
      · exact hc
      · rw [hv]; exact assignable_self _
    cases hx : t.behind with
    | typedef m s => rw [hx] at hb; exact absurd hb (by
        intro z; have := congrArg TTy.isTypedef z
        have hh : ∀ t : TTy, t.behind.isTypedef = false := by
          intro t; induction t <;> first | rfl | assumption
        rw [hh] at this; cases this)
    | struct m => rw [hx] at h ih; exact ih h
    | list e => rw [hx] at h ih; exact ih h
    | set e => rw [hx] at h ih; exact ih h
    | map k e => rw [hx] at h ih; exact ih h
    | _ =>
      rw [hx] at h hu
      exact main _ hx.symm h (by unfold GoTy.convertible; rw [hu]; rfl)
  | .bool, v, h | .byte, v, h | .i16, v, h | .i32, v, h | .i64, v, h | .double, v, h | .string, v, h
  | .binary, v, h => by
    intro c hc
    have e : v = _ := h
    subst e
    simp only [readChecks, List.mem_cons, List.not_mem_nil, or_false] at hc
    subst hc
    rfl

/-- The types of the elements are without typedefs of structs. -/
def TTy.elemsPlain (t : TTy) : Bool :=
  match t.behind with
  | .list e | .set e => e.plain
  | .map k e => k.plain && e.plain
  | _ => true

theorem plain_iff : ∀ t : TTy, t.plain = ((!(t.isTypedef && t.behind.isStruct)) && t.elemsPlain)
  | .typedef n t => by
    rw [TTy.plain, plain_iff t]
    show _ = ((!(true && t.behind.isStruct)) && t.elemsPlain)
    cases t.behind.isStruct <;> simp
  | .list e | .set e | .map k e => by simp [TTy.plain, TTy.isTypedef, TTy.elemsPlain, TTy.behind]
  | .bool | .byte | .i16 | .i32 | .i64 | .double | .string | .binary | .enum _ | .struct _ => rfl

/-- The struct behind the type can be written. -/
theorem writable (t : TTy) (h : t.wf) :
    (t.behind.isStruct → (goType t).method (ascii "Write") = true) ∧ t.elemsPlain ↔ t.plain := by
  rw [plain_iff]
  have key : (t.behind.isStruct → (goType t).method (ascii "Write") = true) ↔
      (!(t.isTypedef && t.behind.isStruct)) = true := by
    cases t with
    | typedef n t =>
      show (t.behind.isStruct = true → _) ↔ (!(true && t.behind.isStruct)) = true
      cases hs : t.behind.isStruct with
      | false => simp
      | true =>
        obtain ⟨m, d, e⟩ := goType_struct n t h hs
        have hu := goType_underlying (.typedef n t)
        rw [show (TTy.typedef n t).behind = t.behind from rfl] at hu
        have : ∃ k, (goType t.behind).underlying = .ptr k := by
          cases hx : t.behind with
          | struct k => exact ⟨_, rfl⟩
          | _ => rw [hx] at hs; cases hs
        obtain ⟨k, hk⟩ := this
        rw [hk] at hu
        have hm : (goType (.typedef n t)).method (ascii "Write") = false := by
          rw [e] at hu ⊢
          unfold GoTy.method
          dsimp only
          rw [hu]
        rw [hm]; simp
    | struct n => simp [TTy.behind, TTy.isStruct, TTy.isTypedef, goType, GoTy.method]
    | _ => simp [TTy.behind, TTy.isStruct, TTy.isTypedef]
  rw [key, Bool.and_eq_true]

theorem writeChecks_ok : ∀ (t : TTy) (v : GoTy), t.wf → v.underlying = (goType t.behind).underlying →
    ((∀ c ∈ writeChecks v t, c.ok = true) ↔
      (t.behind.isStruct → v.method (ascii "Write") = true) ∧ t.elemsPlain = true)
  | .typedef n t, v, h, hv => by
    exact writeChecks_ok t v (wf_typedef h).2 hv
  | .struct n, v, h, hv => by
    simp [writeChecks, Check.ok, TTy.behind, TTy.isStruct, TTy.elemsPlain]
  | .list e, v, h, hv => by
    have hv : v.underlying = .tlist := hv
    have ih := (writeChecks_ok e (goType e) h (goType_underlying e)).trans (writable e h)
    have m := fun x => method_of hv (by intro n; simp) x
    simp only [writeChecks, List.mem_cons, forall_eq_or_imp, ih]
    simp [TTy.behind, TTy.isStruct, TTy.elemsPlain, Check.ok, m, libMethod]
  | .set e, v, h, hv => by
    have hv : v.underlying = .tset := hv
    have ih := (writeChecks_ok e (goType e) h (goType_underlying e)).trans (writable e h)
    have m := fun x => method_of hv (by intro n; simp) x
    simp only [writeChecks, List.mem_cons, forall_eq_or_imp, ih]
    simp [TTy.behind, TTy.isStruct, TTy.elemsPlain, Check.ok, m, libMethod]
  | .map k e, v, h, hv => by
    have hv : v.underlying = .tmap := hv
    have h := wf_map h
    have ih1 := (writeChecks_ok k (goType k) h.1 (goType_underlying k)).trans (writable k h.1)
    have ih2 := (writeChecks_ok e (goType e) h.2 (goType_underlying e)).trans (writable e h.2)
    have m := fun x => method_of hv (by intro n; simp) x
    have hs : (∀ c ∈ writeChecks (goType k) k ++ writeChecks (goType e) e, c.ok = true) ↔ k.plain ∧ e.plain := by
      simp only [List.mem_append]
      constructor
      · exact fun x => ⟨ih1.1 fun c hc => x c (.inl hc), ih2.1 fun c hc => x c (.inr hc)⟩
      · rintro ⟨x, y⟩ c (hc | hc)
        · exact ih1.2 x c hc
        · exact ih2.2 y c hc
    simp only [writeChecks, List.mem_cons, List.cons_append, forall_eq_or_imp, hs]
    simp [TTy.behind, TTy.isStruct, TTy.elemsPlain, Check.ok, m, libMethod]
  | .bool, v, h, hv | .byte, v, h, hv | .i16, v, h, hv | .i32, v, h, hv | .i64, v, h, hv | .double, v, h, hv
  | .string, v, h, hv | .enum _, v, h, hv => by
    have hv : v.underlying = _ := hv
    simp [writeChecks, Check.ok, GoTy.convertible, hv, TTy.behind, TTy.isStruct, TTy.elemsPlain, goType,
      GoTy.underlying, wireTy, GoTy.numeric]
  | .binary, v, h, hv => by
    have hv : v.underlying = .bytes := hv
    simp [writeChecks, Check.ok, GoTy.assignable, hv, TTy.behind, TTy.isStruct, TTy.elemsPlain, GoTy.underlying,
      GoTy.hasName]

/-- Exactly the types without a typedef of a struct in them. -/
theorem C178_partial (t : TTy) (h : t.wf) : (∀ c ∈ fieldChecks t, c.ok) ↔ t.plain := by
  have hw := (writeChecks_ok t (goType t) h (goType_underlying t)).trans (writable t h)
  unfold fieldChecks
  simp only [List.mem_append]
  constructor
  · exact fun x => hw.1 fun c hc => x c (.inr hc)
  · rintro hp c (hc | hc)
    · refine readChecks_ok t _ ?_ c hc
      have hu := goType_underlying t
      unfold Fits
      split <;> rename_i e <;> first | rfl | skip
      · rw [plain_iff, e] at hp
        cases t with
        | typedef n t => simp [TTy.isTypedef, TTy.isStruct] at hp
        | struct n => cases e; rfl
        | _ => cases e
      all_goals rw [hu, e]; rfl
    · exact hw.2 hp c hc

example : ∀ c ∈ fieldChecks (.map (.typedef (ascii "UserId") .i64) (.typedef (ascii "Names") (.list .string))), c.ok :=
  (C178_partial _ (by decide +kernel)).2 (by decide +kernel)

/-! ## C179: an enum field that nobody set is not sent -/

/-- C179: a new struct sends no enum field that has no default. -/
def C179_statement : Prop :=
  ∀ (optional : Bool) (t : TTy), t.behind.isEnum → sentEnum optional t unsetEnum = none

/-- Behind a typedef the test is missing. -/
theorem C179_violated : ¬ C179_statement := fun h =>
  absurd (h false (.typedef (ascii "Shade") (.enum (ascii "Colour"))) rfl) (by decide +kernel)

/-- Exactly for optional fields and enums without typedef; the others are sent as
2147483647, and the receiver takes the field for set. -/
theorem C179_partial (optional : Bool) (t : TTy) :
    (sentEnum optional t unsetEnum = none ↔ optional = true ∨ t.isEnum) ∧
    (optional = false → t.isEnum = false →
      sentEnum optional t unsetEnum = some (BitVec.ofInt 32 2147483647) ∧
      (receivedEnum (BitVec.ofInt 32 2147483647)).toInt = 2147483647 ∧
      enumIsSet (receivedEnum (BitVec.ofInt 32 2147483647)) = true) := by
  cases optional <;> cases h : t.isEnum <;> simp only [sentEnum, h] <;> decide +kernel

example : sentEnum false (.enum (ascii "Colour")) unsetEnum = none :=
  (C179_partial false (.enum (ascii "Colour"))).1.2 (.inr rfl)

/-- Set values arrive, for every enum constant of 32 bits. -/
theorem C179_set (optional : Bool) (t : TTy) (w : I32) :
    sentEnum optional t (w.signExtend 64) = some w ∧ receivedEnum w = w.signExtend 64 ∧
      enumIsSet (receivedEnum w) = true := by
  have h : enumIsSet (w.signExtend 64) = true := by
    unfold enumIsSet
    rw [decide_eq_true_eq]
    intro e
    have := congrArg BitVec.toInt e
    rw [BitVec.toInt_signExtend_of_le (by decide)] at this
    have h2 := BitVec.le_toInt w
    rw [this] at h2
    revert h2
    decide +kernel
  refine ⟨?_, rfl, h⟩
  unfold sentEnum
  rw [h, Bool.not_true, Bool.and_false]
  simp only [Bool.false_eq_true, if_false]
  congr 1
  ext i hi
  rw [BitVec.getElem_setWidth, BitVec.getLsbD_signExtend]
  have : i < 64 := by omega
  simp [hi, this]

/-! ## C180: containers keep the elements read into them -/

/-- `type_to_enum`, which looks through typedefs. -/
def TTy.code (t : TTy) : TType :=
  match t.behind with
  | .bool => TT.BOOL | .byte => TT.BYTE | .i16 => TT.I16 | .i32 => TT.I32 | .i64 => TT.I64
  | .double => TT.DOUBLE | .string => TT.STRING | .binary => TT.BINARY | .enum _ => TT.I32
  | .struct _ => TT.STRUCT | .list _ => TT.LIST | .set _ => TT.SET | .map _ _ => TT.MAP
  | .typedef _ _ => TT.STOP

/-- The values that are read for a type. -/
def Reads (t : TTy) (d : Dyn) : Prop :=
  match t.behind with
  | .bool => ∃ b, d = .bool b
  | .byte => ∃ b, d = .byte b
  | .i16 => ∃ v, d = .int16 v
  | .i32 => ∃ v, d = .int32 v
  | .i64 => ∃ v, d = .int64 v
  | .double => ∃ v, d = .float64 v
  | .string => ∃ s, d = .string s
  | .binary => ∃ s, d = .bytes s
  | .enum _ => ∃ k v s, d = .enumer k v s
  | .struct _ => ∃ p g n s fs as, d = .struct p g n s fs as
  | .list _ => ∃ p e vs, d = .list p e vs
  | .set _ => ∃ p e n vs, d = .set p e n vs
  | .map _ _ => ∃ p k v n ks vs es, d = .map p k v n ks vs es
  | .typedef _ _ => False

/-- A base type or enum behind a typedef. -/
def TTy.hidden (t : TTy) : Bool :=
  t.isTypedef && match t.behind with
    | .struct _ | .list _ | .set _ | .map _ _ => false
    | _ => true

/-- `Add` one after the other. -/
def addAll (L : FloatLib) (l : TSet) : List Dyn → Res TSet
  | [] => .ok l
  | d :: ds => do addAll L (← l.add L d) ds

/-- `Set` one after the other. -/
def setAll (L : FloatLib) (m : TMap) : List (Dyn × Dyn) → Res TMap
  | [] => .ok m
  | e :: es => do setAll L (← m.set L e.1 e.2) es

/-- These are the loops of the generated readers. -/
theorem genReadList_pushAll (L : FloatLib) (vs : List Dyn) : ∀ (n i : Nat) (l : TList), i + n = vs.length →
    (genReadList L (fun i => return (vs.getD i .nil, none)) n i l : P π (TList × GoErr)) =
      P.ofRes (do return (← pushAll L l (vs.drop i), none))
  | 0, i, l, h => by
    rw [List.drop_of_length_le (by omega)]; rfl
  | n + 1, i, l, h => by
    have hi : i < vs.length := by omega
    rw [List.drop_eq_getElem_cons hi]
    show (do let l ← P.ofRes (l.push L (vs.getD i .nil)); genReadList L _ n (i + 1) l) = _
    rw [show vs.getD i .nil = vs[i] by simp [List.getD, hi]]
    rw [pushAll]
    cases l.push L vs[i] with
    | ok l' => exact genReadList_pushAll L vs n (i + 1) l' (by omega)
    | panic => rfl
    | stuck => rfl

/-- C180: a list read from the wire has the elements that were sent. -/
def C180_statement : Prop :=
  ∀ (L : FloatLib) (t : TTy) (tag : Nat) (ds : List Dyn), (∀ d ∈ ds, Reads t d) →
    pushAll L (TList.new t.code) (ds.map (element t tag)) = .ok ⟨t.code, ds.map (element t tag)⟩

def isBaseCode (et : TType) : Prop :=
  et ∈ [TT.BOOL, TT.BYTE, TT.I16, TT.I32, TT.I64, TT.DOUBLE, TT.STRING, TT.BINARY]

/-- A value of a named type cannot be converted by the library. -/
theorem coerce_obj (L : FloatLib) (et : TType) (h : isBaseCode et) (p : Nat) :
    ∃ d, coerceData L et (.obj p) = .ok (d, false) := by
  simp only [isBaseCode, List.mem_cons, List.not_mem_nil, or_false] at h
  rcases h with rfl | rfl | rfl | rfl | rfl | rfl | rfl | rfl
  · exact ⟨.bool false, rfl⟩
  · exact ⟨.byte 0, rfl⟩
  · exact ⟨.int16 0, rfl⟩
  · exact ⟨.int32 0, rfl⟩
  · exact ⟨.int64 0, rfl⟩
  · exact ⟨.float64 0, rfl⟩
  · exact ⟨.string [], rfl⟩
  · exact ⟨.string [], rfl⟩

theorem base_not_empty {et : TType} (h : isBaseCode et) : isEmptyType et = false ∧ et ≠ TT.STOP ∧ et ≠ TT.VOID := by
  simp only [isBaseCode, List.mem_cons, List.not_mem_nil, or_false] at h
  rcases h with rfl | rfl | rfl | rfl | rfl | rfl | rfl | rfl <;> decide

theorem element_hidden {t : TTy} (h : t.hidden = true) (tag : Nat) (d : Dyn) : element t tag d = .obj tag := by
  unfold TTy.hidden at h
  unfold element
  rw [Bool.and_eq_true] at h
  rw [if_pos h.1]
  cases hb : t.behind <;> rw [hb] at h <;> first | rfl | exact absurd h.2 Bool.false_ne_true

theorem push_obj (L : FloatLib) (l : TList) (h : isBaseCode l.elemType) (p : Nat) : l.push L (.obj p) = .ok l := by
  obtain ⟨d, hd⟩ := coerce_obj L _ h p
  have ht : l.typeFor (.obj p) = l.elemType := by
    rw [TList.typeFor, (base_not_empty h).1]; rfl
  unfold TList.push
  dsimp only
  rw [ht, hd]
  rfl

theorem add_obj (L : FloatLib) (l : TSet) (h : isBaseCode l.elemType) (p : Nat) : l.add L (.obj p) = .ok l := by
  obtain ⟨d, hd⟩ := coerce_obj L _ h p
  unfold TSet.add
  rw [hd]
  rfl

/-- Elements of base types behind a typedef are lost: a list stays empty, and so
does a set, whose length nevertheless is the number that was announced. -/
theorem C180_lost (L : FloatLib) (t : TTy) (h : t.hidden = true) (et : TType) (he : isBaseCode et) (tag : Nat)
    (ds : List Dyn) (n : Int) :
    pushAll L (TList.new et) (ds.map (element t tag)) = .ok (TList.new et) ∧
    addAll L (TSet.new et n) (ds.map (element t tag)) = .ok (TSet.new et n) ∧
    (TSet.new et n).len = n ∧ (TSet.new et n).values = [] := by
  refine ⟨?_, ?_, by simp [TSet.new, TSet.len], rfl⟩
  · induction ds with
    | nil => rfl
    | cons d ds ih =>
      rw [List.map_cons, pushAll, element_hidden h, push_obj L _ he]
      exact ih
  · induction ds with
    | nil => rfl
    | cons d ds ih =>
      rw [List.map_cons, addAll, element_hidden h, add_obj L _ he]
      exact ih

/-- The same for maps: they stay empty if their keys, or their values, are of base
types behind a typedef. -/
theorem set_obj_key (L : FloatLib) (m : TMap) (h : isBaseCode m.keyType) (p : Nat) (v : Dyn) :
    m.set L (.obj p) v = .ok m := by
  obtain ⟨d, hd⟩ := coerce_obj L _ h p
  obtain ⟨_, h1, h2⟩ := base_not_empty h
  unfold TMap.set
  dsimp only
  rw [if_neg (by rintro (e | e) <;> contradiction), hd]
  rfl

theorem set_obj_value (L : FloatLib) (m : TMap) (hk : m.keyType ≠ TT.STOP ∧ m.keyType ≠ TT.VOID)
    (h : isBaseCode m.valueType) (k : Dyn) (p : Nat) (hn : Native m.keyType k) : m.set L k (.obj p) = .ok m := by
  obtain ⟨d, hd⟩ := coerce_obj L _ h p
  obtain ⟨_, h1, h2⟩ := base_not_empty h
  unfold TMap.set
  dsimp only
  rw [if_neg (by rintro (e | e) <;> simp_all), coerceData_native L hn]
  show (do
    let (cv, ok) ← coerceData L (if m.valueType = TT.STOP ∨ m.valueType = TT.VOID then _ else m.valueType) (.obj p)
    _) = _
  rw [if_neg (by rintro (e | e) <;> contradiction), hd]
  rfl

theorem C180_lost_map (L : FloatLib) (k v : TTy) (kt vt : TType) (n : Int) (tag tag' : Nat) (es : List (Dyn × Dyn))
    (h : k.hidden = true ∧ isBaseCode kt ∨
      v.hidden = true ∧ isBaseCode vt ∧ kt ≠ TT.STOP ∧ kt ≠ TT.VOID ∧ ∀ e ∈ es, Native kt (element k tag e.1)) :
    setAll L (TMap.new kt vt n) (es.map fun e => (element k tag e.1, element v tag' e.2)) = .ok (TMap.new kt vt n) := by
  induction es with
  | nil => rfl
  | cons e es ih =>
    rw [List.map_cons, setAll]
    have : (TMap.new kt vt n).set L (element k tag e.1) (element v tag' e.2) = .ok (TMap.new kt vt n) := by
      rcases h with ⟨h1, h2⟩ | ⟨h1, h2, h3, h4, h5⟩
      · rw [element_hidden h1]; exact set_obj_key L (TMap.new kt vt n) h2 tag _
      · rw [element_hidden h1]
        exact set_obj_value L (TMap.new kt vt n) ⟨h3, h4⟩ h2 _ tag' (h5 e List.mem_cons_self)
    dsimp only
    rw [this]
    refine ih ?_
    rcases h with h | ⟨h1, h2, h3, h4, h5⟩
    · exact .inl h
    · exact .inr ⟨h1, h2, h3, h4, fun x hx => h5 x (List.mem_cons_of_mem _ hx)⟩

example : setAll exampleLib (TMap.new TT.STRING TT.I64 1)
    ([(Dyn.string (ascii "a"), Dyn.int64 7)].map fun e =>
      (element .string 0 e.1, element (.typedef (ascii "UserId") .i64) 1 e.2)) = .ok (TMap.new TT.STRING TT.I64 1) :=
  C180_lost_map _ _ _ _ _ _ _ _ _ (.inr ⟨rfl, by simp [isBaseCode], by decide, by decide, by
    intro e he; rw [List.mem_singleton] at he; subst he; exact .inl rfl⟩)

theorem hidden_base {t : TTy} (h : t.hidden = true) : isBaseCode t.code := by
  have hh : ∀ t : TTy, t.behind.isTypedef = false := by
    intro t; induction t <;> first | rfl | assumption
  have ht := hh t
  unfold TTy.hidden at h
  rw [Bool.and_eq_true] at h
  unfold TTy.code isBaseCode
  cases hb : t.behind <;> rw [hb] at h ht <;>
    first | (simp; done) | exact absurd h.2 Bool.false_ne_true | exact absurd ht (by simp [TTy.isTypedef])

theorem C180_violated : ¬ C180_statement := fun h => by
  have h1 := h exampleLib (.typedef (ascii "UserId") .i64) 0 [.int64 7] (by
    intro d hd; rw [List.mem_singleton] at hd; exact ⟨7, hd⟩)
  rw [(C180_lost exampleLib (.typedef (ascii "UserId") .i64) rfl _ (hidden_base rfl) 0 [.int64 7] 0).1] at h1
  exact absurd (congrArg (fun r => match r with | Res.ok l => TList.len l | _ => 0) h1) (by decide)

theorem element_kept {t : TTy} (h : t.hidden = false) (tag : Nat) (d : Dyn) : element t tag d = d := by
  unfold TTy.hidden at h
  unfold element
  cases ht : t.isTypedef with
  | false => rfl
  | true =>
    rw [ht, Bool.true_and] at h
    cases hb : t.behind <;> rw [hb] at h <;> first | rfl | cases h

theorem reads_native {t : TTy} (he : t.behind.isEnum = false) {d : Dyn} (h : Reads t d) : Native t.code d := by
  unfold Reads at h
  unfold TTy.code
  cases hb : t.behind <;> rw [hb] at h he <;> first | cases he | skip
  case string => obtain ⟨s, rfl⟩ := h; exact .inl rfl
  case typedef => exact h.elim
  case struct => obtain ⟨_, _, _, _, _, _, rfl⟩ := h; rfl
  case list => obtain ⟨_, _, _, rfl⟩ := h; rfl
  case set => obtain ⟨_, _, _, _, rfl⟩ := h; rfl
  case map => obtain ⟨_, _, _, _, _, _, _, rfl⟩ := h; rfl
  all_goals obtain ⟨_, rfl⟩ := h; rfl

theorem pushAll_native (L : FloatLib) : ∀ (ds : List Dyn) (l : TList), isEmptyType l.elemType = false →
    (∀ d ∈ ds, Native l.elemType d) → pushAll L l ds = .ok ⟨l.elemType, l.l ++ ds⟩
  | [], l, _, _ => by rw [List.append_nil]; rfl
  | d :: ds, l, he, h => by
    have ht : l.typeFor d = l.elemType := by rw [TList.typeFor, he]; rfl
    have hp : l.push L d = .ok ⟨l.elemType, l.l ++ [d]⟩ := by
      unfold TList.push
      dsimp only
      rw [ht, coerceData_native L (h d List.mem_cons_self)]
      rfl
    rw [pushAll, hp]
    have := pushAll_native L ds ⟨l.elemType, l.l ++ [d]⟩ he fun x hx => h x (List.mem_cons_of_mem _ hx)
    rw [List.append_assoc] at this
    exact this

theorem reads_some : ∀ t : TTy, ∃ d, Reads t d
  | .typedef _ t => reads_some t
  | .bool => ⟨_, false, rfl⟩
  | .byte => ⟨_, 0, rfl⟩
  | .i16 => ⟨_, 0, rfl⟩
  | .i32 => ⟨_, 0, rfl⟩
  | .i64 => ⟨_, 0, rfl⟩
  | .double => ⟨_, 0, rfl⟩
  | .string => ⟨_, [], rfl⟩
  | .binary => ⟨_, [], rfl⟩
  | .enum _ => ⟨_, 0, 0, [], rfl⟩
  | .struct _ => ⟨_, 0, false, [], [], [], [], rfl⟩
  | .list _ => ⟨_, 0, 0, [], rfl⟩
  | .set _ => ⟨_, 0, 0, 0, [], rfl⟩
  | .map _ _ => ⟨_, 0, 0, 0, 0, [], [], [], rfl⟩

/-- Lists keep their elements for exactly the types that are not a base type or enum
behind a typedef, and not enums: those become numbers. -/
theorem C180_partial (L : FloatLib) (t : TTy) :
    (∀ (tag : Nat) (ds : List Dyn), (∀ d ∈ ds, Reads t d) →
      pushAll L (TList.new t.code) (ds.map (element t tag)) = .ok ⟨t.code, ds.map (element t tag)⟩) ↔
    t.hidden = false ∧ t.behind.isEnum = false := by
  constructor
  · intro h
    cases hh : t.hidden with
    | true =>
      obtain ⟨d, hd⟩ := reads_some t
      have h1 := h 0 [d] (by intro x hx; rw [List.mem_singleton] at hx; subst hx; exact hd)
      rw [(C180_lost L t hh _ (hidden_base hh) 0 [d] 0).1] at h1
      exact absurd (congrArg (fun r => match r with | Res.ok l => TList.len l | _ => 0) h1) (by simp [TList.len, TList.new])
    | false =>
      refine ⟨rfl, ?_⟩
      cases he : t.behind.isEnum with
      | false => rfl
      | true =>
        have hc : t.code = TT.I32 ∧ Reads t (.enumer 0 0 []) := by
          unfold TTy.code Reads
          cases hb : t.behind <;> rw [hb] at he <;> first | cases he | skip
          exact ⟨rfl, _, _, _, rfl⟩
        have h1 := h 0 [.enumer 0 0 []] (by intro x hx; rw [List.mem_singleton] at hx; subst hx; exact hc.2)
        rw [List.map_cons, element_kept hh, hc.1] at h1
        have h2 : pushAll L (TList.new TT.I32) [.enumer 0 0 []] = .ok ⟨TT.I32, [.int32 0]⟩ := rfl
        rw [List.map_nil, h2] at h1
        exact absurd (congrArg (fun r => match r with | Res.ok l => (match l.l with | [.int32 _] => true | _ => false) | _ => false) h1) (by simp)
  · rintro ⟨hh, he⟩ tag ds hd
    have : ds.map (element t tag) = ds := by
      rw [List.map_congr_left (fun d _ => element_kept hh tag d), List.map_id']
    rw [this]
    refine pushAll_native L ds (TList.new t.code) ?_ fun d h => reads_native he (hd d h)
    have hb := behind_behind t
    show isEmptyType t.code = false
    unfold TTy.code
    cases hx : t.behind <;> first | rfl | skip
    case typedef n s =>
      rw [hx] at hb
      have hh : ∀ t : TTy, t.behind.isTypedef = false := by
        intro t; induction t <;> first | rfl | assumption
      have := hh t
      rw [hx] at this
      cases this

example : pushAll exampleLib (TList.new TT.LIST) ([Dyn.list 1 TT.I32 []].map (element (.typedef (ascii "Row") (.list .i32)) 0)) =
    .ok ⟨TT.LIST, [Dyn.list 1 TT.I32 []].map (element (.typedef (ascii "Row") (.list .i32)) 0)⟩ :=
  (C180_partial exampleLib (.typedef (ascii "Row") (.list .i32))).2 ⟨rfl, rfl⟩ 0 _ (by
    intro d hd; rw [List.mem_singleton] at hd; exact ⟨_, _, _, hd⟩)

/-! ## C181: the function that receives an answer -/

/-- C181: Go accepts the names in `Recv…`, whatever the exceptions are called. -/
def C181_statement : Prop :=
  ∀ (ret : Bool) (result mk : Bytes) (excs : List Bytes), excs.Nodup → RecvAccepted ret result mk excs

theorem C181_violated : ¬ C181_statement := fun h =>
  absurd ((h true (ascii "result12") (ascii "NewPingResult") [ascii "error"] (by decide +kernel)).assigned _
    List.mem_cons_self) (by decide +kernel)

/-- Also an exception with the name of a variable of the function. -/
theorem C181_iprot_violated : ¬ C181_statement := fun h =>
  absurd (h true (ascii "result12") (ascii "NewPingResult") [ascii "iprot"] (by decide +kernel)).once (by decide +kernel)

/-- The names an exception cannot have, because the function uses them. -/
def recvTaken (ret : Bool) (result mk : Bytes) : List Bytes :=
  (if ret then [ascii "value"] else []) ++
    [ascii "p", ascii "err", ascii "iprot", ascii "mTypeId", ascii "seqId", ascii "thrift", ascii "nil", result, mk]

theorem reserved_plain : ∀ c : Byte, ∀ w ∈ reserved c, 95#8 ∉ w := by decide +kernel

/-- A word that becomes another word is not what some word becomes. -/
theorem goName_stays {v e : Bytes} (h : goName v = e) : goName e = e := by
  cases e with
  | nil => rfl
  | cons c r =>
    rw [goName, if_neg]
    intro hr
    rcases goName_eq v with k | k
    · rw [h] at k
      subst k
      rw [goName, if_pos hr] at h
      have := congrArg List.length h
      simp [ascii] at this
    · rw [h] at k
      refine reserved_plain c _ hr ?_
      rw [k, List.map_append]
      exact List.mem_append_right _ (by decide +kernel)

theorem nodup_around {A B E : List Bytes} : (A ++ E ++ B).Nodup ↔
    (A ++ B).Nodup ∧ E.Nodup ∧ ∀ e ∈ E, e ∉ A ∧ e ∉ B := by
  simp only [List.nodup_append, List.mem_append]
  constructor
  · rintro ⟨⟨ha, he, h1⟩, hb, h2⟩
    exact ⟨⟨ha, hb, fun a h b k => h2 a (.inl h) b k⟩, he, fun e h =>
      ⟨fun k => h1 e k e h rfl, fun k => h2 e (.inr h) e k rfl⟩⟩
  · rintro ⟨⟨ha, hb, h1⟩, he, h2⟩
    refine ⟨⟨ha, he, fun a h b k => ?_⟩, hb, ?_⟩
    · rintro rfl; exact (h2 _ k).1 h
    · rintro a (h | h) b k
      · exact h1 a h b k
      · rintro rfl; exact (h2 _ h).2 k

/-- The names in front of the exceptions. -/
def recvFront (ret : Bool) : List Bytes := ascii "p" :: (if ret then [ascii "value"] else [])

/-- Exactly when no exception is called like a reserved word or like something that
the function uses. -/
theorem C181_partial (ret : Bool) (result mk : Bytes) (excs : List Bytes) (hn : excs.Nodup)
    (hr : result ∉ [ascii "p", ascii "value", ascii "err", ascii "iprot", ascii "mTypeId", ascii "seqId"])
    (hm : mk ∉ [ascii "p", ascii "value", ascii "err"]) :
    RecvAccepted ret result mk excs ↔ ∀ e ∈ excs, goName e = e ∧ e ∉ recvTaken ret result mk := by
  have fixed : (recvFront ret ++ (ascii "err" :: recvLocals result)).Nodup := by
    simp only [List.mem_cons, List.not_mem_nil, or_false, not_or] at hr
    obtain ⟨h1, h2, h3, h4, h5, h6⟩ := hr
    have k : (recvFront ret ++ [ascii "err", ascii "iprot", ascii "mTypeId", ascii "seqId"]).Nodup := by
      cases ret <;> decide +kernel
    show (recvFront ret ++ ([ascii "err", ascii "iprot", ascii "mTypeId", ascii "seqId"] ++ [result])).Nodup
    rw [← List.append_assoc, List.nodup_append]
    refine ⟨k, by simp, ?_⟩
    intro a ha b hb
    rw [List.mem_singleton] at hb
    subst hb
    rintro rfl
    cases ret <;> simp only [recvFront, List.mem_append, List.mem_cons, List.not_mem_nil, or_false, if_true, if_false,
      Bool.false_eq_true] at ha <;> simp_all
  have split : recvHead ret excs ++ recvLocals result =
      recvFront ret ++ excs.map goName ++ (ascii "err" :: recvLocals result) := by
    cases ret <;> simp [recvHead, recvFront]
  have free : ∀ n ∈ recvUses mk, n ∉ recvFront ret ∧ n ≠ ascii "err" := by
    simp only [List.mem_cons, List.not_mem_nil, or_false, not_or] at hm
    intro n h
    simp only [recvUses, List.mem_cons, List.not_mem_nil, or_false] at h
    rcases h with rfl | rfl | rfl
    · cases ret <;> decide +kernel
    · cases ret <;> decide +kernel
    · refine ⟨?_, hm.2.2⟩
      cases ret
      · simpa [recvFront] using hm.1
      · simpa [recvFront] using ⟨hm.1, hm.2.1⟩
  have head : ∀ n, n ∈ recvHead ret excs ↔ n ∈ recvFront ret ∨ n ∈ excs.map goName ∨ n = ascii "err" := by
    intro n
    cases ret <;> simp [recvHead, recvFront, or_assoc]
  have keep : (∀ e ∈ excs, goName e = e) → excs.map goName = excs := fun h => by
    rw [List.map_congr_left h, List.map_id']
  have taken : ∀ e, e ∈ recvTaken ret result mk ↔ e ∈ recvFront ret ∨ e ∈ ascii "err" :: recvLocals result ∨
      e ∈ recvUses mk := by
    intro e
    cases ret <;> simp only [recvTaken, recvFront, recvLocals, recvUses, List.mem_append, List.mem_cons,
      List.not_mem_nil, or_false, if_true, if_false, Bool.false_eq_true, false_or] <;> grind
  constructor
  · intro h
    have hk : ∀ e ∈ excs, goName e = e := by
      intro e he
      rcases (head e).1 (h.assigned e he) with k | k | k
      · cases ret
        · simp only [recvFront, Bool.false_eq_true, if_false, List.mem_cons, List.not_mem_nil, or_false] at k
          subst k; decide +kernel
        · simp only [recvFront, if_true, List.mem_cons, List.not_mem_nil, or_false] at k
          rcases k with rfl | rfl <;> decide +kernel
      · obtain ⟨v, _, hv⟩ := List.mem_map.1 k
        exact goName_stays hv
      · subst k; decide +kernel
    have h1 := h.once
    rw [split, keep hk, nodup_around] at h1
    intro e he
    refine ⟨hk e he, fun k => ?_⟩
    rcases (taken e).1 k with k | k | k
    · exact (h1.2.2 e he).1 k
    · exact (h1.2.2 e he).2 k
    · exact h.free e k ((head e).2 (.inr (.inl (by rw [keep hk]; exact he))))
  · intro h
    have hk := keep fun e he => (h e he).1
    refine ⟨?_, ?_, ?_, ?_⟩
    · rw [split, hk, nodup_around]
      exact ⟨fixed, hn, fun e he => ⟨fun k => (h e he).2 ((taken e).2 (.inl k)),
        fun k => (h e he).2 ((taken e).2 (.inr (.inl k)))⟩⟩
    · intro n hu k
      rcases (head n).1 k with k | k | k
      · exact (free n hu).1 k
      · rw [hk] at k
        exact (h n k).2 ((taken n).2 (.inr (.inr hu)))
      · exact (free n hu).2 k
    · intro e he
      exact (head e).2 (.inr (.inl (by rw [hk]; exact he)))
    · intro e he
      exact List.mem_map.2 ⟨e, he, by rw [fieldName, (h e he).1]⟩

example : RecvAccepted true (ascii "result12") (ascii "NewPingResult") [ascii "ouch", ascii "not_found"] :=
  (C181_partial true _ _ _ (by decide +kernel) (by decide +kernel) (by decide +kernel)).2 (by decide +kernel)

/-- The library is mentioned by the Go types of lists, sets and maps, and not by a
typedef of one. -/
theorem C173_mentions (t : TTy) (h : t.wf) (he : ∀ n, t = .enum n → startsName n) :
    t.mentions = [ascii "thrift"] ∧ (ascii "thrift.") <+: (goType t).text ∨
      t.mentions = [] ∧ ¬ (ascii "thrift.") <+: (goType t).text := by
  have up : ∀ c : Byte, (isAlpha c || c = 95) = true → upper c ≠ 116 := by decide +kernel
  have key : ∀ n, startsName n = true → ¬ (ascii "thrift.") <+: publicize n := fun n hn => by
    cases n with
    | nil => cases hn
    | cons c r =>
      rintro ⟨x, hx⟩
      have : (116 : Byte) = upper c := (List.cons.inj hx).1
      exact up c hn this.symm
  cases t with
  | typedef n t =>
    refine .inr ⟨rfl, ?_⟩
    have : (goType (.typedef n t)).text = publicize n := by
      rw [goType]
      split
      · assumption
      · rfl
    rw [this]
    exact key n (wf_typedef h).1
  | enum n => exact .inr ⟨rfl, key n (he n rfl)⟩
  | struct n =>
    refine .inr ⟨rfl, ?_⟩
    rintro ⟨x, hx⟩
    exact absurd (List.cons.inj hx).1 (by decide)
  | list e => exact .inl ⟨rfl, (show ascii "thrift." <+: ascii "thrift.TList" from by decide +kernel)⟩
  | set e => exact .inl ⟨rfl, (show ascii "thrift." <+: ascii "thrift.TSet" from by decide +kernel)⟩
  | map k e => exact .inl ⟨rfl, (show ascii "thrift." <+: ascii "thrift.TMap" from by decide +kernel)⟩
  | _ => exact .inr ⟨rfl, by decide +kernel⟩

example : (TTy.map .i32 .bool).mentions = [ascii "thrift"] := by
  rcases C173_mentions (.map .i32 .bool) rfl (by intro n h; cases h) with h | h
  · exact h.1
  · exact absurd (by decide +kernel) h.2

/-- Characters are converted to a number for exactly the types that are numbers in
Go. -/
theorem C174_parsed (t : TTy) : t.parsed = (goType t).underlying.numeric := by
  rw [goType_underlying]
  have hn : t.behind.isTypedef = false := by induction t <;> first | rfl | assumption
  unfold TTy.parsed
  cases hb : t.behind <;> rw [hb] at hn <;> first | rfl | cases hn

/-- Enums are 64 bits wide. -/
theorem C178_enum (t : TTy) (h : t.behind.isEnum) : (goType t).underlying = .int64 := by
  rw [goType_underlying]
  cases hb : t.behind <;> rw [hb] at h <;> first | rfl | cases h

/-- Values of a typedef and of what it stands for are kept apart for numbers, strings
and enums, and mixed for structs, containers and binary. -/
theorem C178_apart (n : Bytes) (t : TTy) (h : t.isTypedef = false) (hn : (goType t).text ≠ publicize n) :
    (goType t).assignable (goType (.typedef n t)) =
      match t with
      | .struct _ | .list _ | .set _ | .map _ _ | .binary => true
      | _ => false := by
  rw [goType, if_neg hn]
  cases t with
  | typedef _ _ => cases h
  | _ => simp [goType, GoTy.assignable, GoTy.underlying, GoTy.hasName, GoTy.interface]

example : GoTy.assignable .int32 (goType (.typedef (ascii "UserId") .i32)) = false :=
  C178_apart (ascii "UserId") .i32 rfl (by decide +kernel)

end Thrift.Emit
