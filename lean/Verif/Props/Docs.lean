import Verif.Model.Docs
import Verif.Spec.Docs
import Verif.Props.Emitted
/-!
# Comments, constants and directories of generated code
-/

namespace Thrift.Emit

/-! ## C200: documentation stays in comments -/

/-- C200: documentation without an end of a comment in it, as is all documentation that
stood in a comment, is printed as one comment. -/
def C200_statement : Prop :=
  ∀ (ind : Bytes) (doc : Option Bytes) (ms : List (Bytes × Option Bytes)), (∀ c ∈ ind, c = 32) →
    (∀ d, doc = some d → closes d = none) → (∀ m ∈ ms, Identifier m.1 ∧ ∀ d, m.2 = some d → closes d = none) →
    (genericDoc ind doc = [] ∨ OneComment (genericDoc ind doc)) ∧
    ∀ sub ∈ [ascii "Attributes", ascii "Parameters"], structDoc ind sub doc ms = [] ∨ OneComment (structDoc ind sub doc ms)

/-- What `closes` looks for. -/
theorem closes_none {a : Bytes} : closes a = none ↔ ∀ u v, a ≠ u ++ [42, 47] ++ v := by
  induction a with
  | nil => simp [closes]
  | cons c r ih =>
    rw [closes]
    by_cases h : c = 42 ∧ r.head? = some 47
    · rw [if_pos h]
      obtain ⟨rfl, h⟩ := h
      cases r with
      | nil => simp at h
      | cons d r =>
        obtain rfl : d = 47 := by simpa using h
        simp only [List.tail_cons, reduceCtorEq, false_iff]
        exact fun h => h [] r rfl
    · rw [if_neg h, ih]
      constructor
      · intro hn u v e
        cases u with
        | nil => cases e; exact h ⟨rfl, rfl⟩
        | cons x u => cases e; exact hn u v rfl
      · intro hn u v e
        exact hn (c :: u) v (by rw [e]; rfl)

theorem closes_some {a r : Bytes} (b : Bytes) (h : closes a = some r) : closes (a ++ b) = some (r ++ b) := by
  induction a with
  | nil => simp [closes] at h
  | cons c t ih =>
    rw [closes] at h
    rw [List.cons_append, closes]
    by_cases hc : c = 42 ∧ t.head? = some 47
    · rw [if_pos hc] at h
      obtain ⟨rfl, hc⟩ := hc
      cases t with
      | nil => simp at hc
      | cons d t =>
        obtain rfl : d = 47 := by simpa using hc
        injection h with h
        subst h
        rfl
    · rw [if_neg hc] at h
      rw [if_neg, ih h]
      rintro ⟨rfl, h2⟩
      cases t with
      | nil => simp [closes] at h
      | cons d t => exact hc ⟨rfl, h2⟩

theorem closes_behind {a b : Bytes} (h : closes a = none) (hb : b.head? ≠ some 47) : closes (a ++ b) = closes b := by
  induction a with
  | nil => rfl
  | cons c t ih =>
    rw [closes] at h
    rw [List.cons_append, closes]
    by_cases hc : c = 42 ∧ t.head? = some 47
    · rw [if_pos hc] at h; simp at h
    · rw [if_neg hc] at h
      rw [if_neg, ih h]
      rintro ⟨rfl, h2⟩
      cases t with
      | nil => exact hb h2
      | cons d t => exact hc ⟨rfl, h2⟩

theorem closes_both {a b : Bytes} (hb : b.head? ≠ some 47) : closes (a ++ b) = none ↔ closes a = none ∧ closes b = none := by
  constructor
  · intro h
    cases ha : closes a with
    | none => exact ⟨rfl, by rw [← closes_behind ha hb]; exact h⟩
    | some r => rw [closes_some b ha] at h; simp at h
  · rintro ⟨h1, h2⟩
    rw [closes_behind h1 hb, h2]

theorem closes_cons {c : Byte} {r : Bytes} (hc : c ≠ 42) : closes (c :: r) = closes r := by
  rw [closes, if_neg fun h => hc h.1]

theorem closes_plain : ∀ {a : Bytes}, 42 ∉ a → closes a = none
  | [], _ => rfl
  | c :: r, h => by
    rw [closes_cons fun e => h (by rw [e]; exact List.mem_cons_self)]
    exact closes_plain fun x => h (List.mem_cons_of_mem _ x)

theorem closes_blank {ind : Bytes} (hi : ∀ c ∈ ind, c = 32) (b : Bytes) : closes (ind ++ b) = closes b := by
  induction ind with
  | nil => rfl
  | cons c r ih =>
    rw [List.cons_append, closes_cons (by rw [hi c List.mem_cons_self]; decide)]
    exact ih fun d hd => hi d (List.mem_cons_of_mem _ hd)

theorem splitLines_ne (t : Bytes) : splitLines t ≠ [] := by
  cases t with
  | nil => simp [splitLines]
  | cons c r =>
    rw [splitLines]
    split
    · simp
    · split <;> simp

theorem splitLines_head {t l : Bytes} {ls : List Bytes} (h : splitLines t = l :: ls) {x : Byte} (hx : l.head? = some x) : t.head? = some x := by
  cases t with
  | nil => simp only [splitLines, List.cons.injEq] at h; rw [← h.1] at hx; simp at hx
  | cons c r =>
    rw [splitLines] at h
    split at h
    · simp only [List.cons.injEq] at h; rw [← h.1] at hx; simp at hx
    · split at h
      · simp only [List.cons.injEq] at h; rw [← h.1] at hx; exact hx
      · simp only [List.cons.injEq] at h; rw [← h.1] at hx; exact hx

theorem splitLines_closes : ∀ {t : Bytes}, closes t = none → ∀ l ∈ splitLines t, closes l = none
  | [], _, l, hl => by rw [List.mem_singleton.1 hl]; rfl
  | c :: r, h, l, hl => by
    rw [splitLines] at hl
    have hr : closes r = none := by
      rw [closes] at h
      split at h
      · simp at h
      · exact h
    split at hl
    · rcases List.mem_cons.1 hl with rfl | hl
      · rfl
      · exact splitLines_closes hr l hl
    · split at hl
      · rename_i he
        exact absurd he (splitLines_ne r)
      · rename_i k ks he
        have ih := splitLines_closes hr
        rw [he] at ih
        rcases List.mem_cons.1 hl with rfl | hl
        · rw [closes, if_neg]
          · exact ih k List.mem_cons_self
          · rintro ⟨rfl, hk⟩
            rw [closes, if_pos ⟨rfl, splitLines_head he hk⟩] at h
            simp at h
        · exact ih l (List.mem_cons_of_mem _ hl)

theorem docLines_sub {t l : Bytes} (h : l ∈ docLines t) : l ∈ splitLines t := by
  unfold docLines at h
  split at h
  · exact List.dropLast_subset _ h
  · exact h

theorem blank_head {ind b : Bytes} (hi : ∀ c ∈ ind, c = 32) (hb : b.head? ≠ some 47) : (ind ++ b).head? ≠ some 47 := by
  cases ind with
  | nil => exact hb
  | cons c r => rw [hi c List.mem_cons_self]; simp

/-- The lines of a comment. -/
theorem closes_lines {ind pre : Bytes} (hi : ∀ c ∈ ind, c = 32) (hp : ∃ q, pre = 32 :: q) (b : Bytes) (hb : b.head? ≠ some 47) : ∀ ls : List Bytes,
    closes ((ls.flatMap fun l => ind ++ pre ++ l ++ [10]) ++ b) = none ↔ (∀ l ∈ ls, closes (pre ++ l) = none) ∧ closes b = none
  | [] => by simp
  | l :: ls => by
    have ih := closes_lines hi hp b hb ls
    obtain ⟨q, rfl⟩ := hp
    rw [List.flatMap_cons, List.append_assoc, List.append_assoc, List.append_assoc, List.append_assoc, closes_blank hi, ← List.append_assoc,
      closes_both (by simp), List.singleton_append, closes_cons (by decide), ih]
    simp only [List.forall_mem_cons]
    exact ⟨fun ⟨a, b, c⟩ => ⟨⟨a, b⟩, c⟩, fun ⟨⟨a, b⟩, c⟩ => ⟨a, b, c⟩⟩

/-- A comment is one comment exactly if none of its lines closes it. -/
theorem one_comment {ind pre : Bytes} (hi : ∀ c ∈ ind, c = 32) (hp : ∃ q, pre = 32 :: q) (t : Bytes) :
    OneComment (docComment ind pre t) ↔ ∀ l ∈ docLines t, closes (pre ++ l) = none := by
  have hA : closes ([42, 10] ++ ((docLines t).flatMap fun l => ind ++ pre ++ l ++ [10]) ++ (ind ++ [32])) = none ↔
      ∀ l ∈ docLines t, closes (pre ++ l) = none := by
    rw [List.append_assoc, List.cons_append, closes, if_neg (by simp), List.singleton_append, closes_cons (by decide),
      closes_lines hi hp _ (blank_head hi (by simp)), closes_blank hi]
    simp [closes]
  have htext : docComment ind pre t =
      ind ++ [47, 42] ++ (([42, 10] ++ ((docLines t).flatMap fun l => ind ++ pre ++ l ++ [10]) ++ (ind ++ [32])) ++ [42, 47]) ++ [10] := by
    rw [docComment, show ascii "/**\n" = [47, 42] ++ [42, 10] from by decide, show ascii " */\n" = [32] ++ ([42, 47] ++ [10]) from by decide]
    simp only [List.append_assoc]
  rw [htext, ← hA]
  generalize [42, 10] ++ ((docLines t).flatMap fun l => ind ++ pre ++ l ++ [10]) ++ (ind ++ [32]) = A
  constructor
  · rintro ⟨ws, body, hw, he, hc⟩
    have key : ∀ (ind ws x y : Bytes), (∀ c ∈ ind, c = 32) → (∀ c ∈ ws, c = 32 ∨ c = 9) → ind ++ 47 :: x = ws ++ 47 :: y → x = y := by
      intro ind
      induction ind with
      | nil =>
        intro ws x y _ hw h
        cases ws with
        | nil => simpa using h
        | cons c ws =>
          rcases hw c List.mem_cons_self with rfl | rfl <;> simp at h
      | cons c ind ih =>
        intro ws x y hi hw h
        cases ws with
        | nil => rw [hi c List.mem_cons_self] at h; simp at h
        | cons d ws =>
          simp only [List.cons_append, List.cons.injEq] at h
          exact ih ws x y (fun e he => hi e (List.mem_cons_of_mem _ he)) (fun e he => hw e (List.mem_cons_of_mem _ he)) h.2
    have hb : A ++ [42, 47] = body := by
      have := key ind ws (42 :: (A ++ [42, 47] ++ [10])) (42 :: (body ++ [10])) hi hw (by simpa using he)
      exact List.append_cancel_right (List.cons.inj this).2
    subst hb
    cases ha : closes A with
    | none => rfl
    | some r =>
      have h0 := hc []
      rw [List.append_nil, closes_some _ ha] at h0
      simp at h0
  · intro ha
    refine ⟨ind, A ++ [42, 47], fun c hc => .inl (hi c hc), rfl, fun rest => ?_⟩
    rw [List.append_assoc, closes_behind ha (by simp)]
    simp [closes]

/-- C200 for typedefs, enums and services: the comment is one comment exactly if no line
of the documentation begins with a slash. -/
theorem C200_generic_partial {ind : Bytes} (hi : ∀ c ∈ ind, c = 32) {d : Bytes} (hd : closes d = none) :
    OneComment (genericDoc ind (some d)) ↔ ∀ l ∈ docLines d, l.head? ≠ some 47 := by
  show OneComment (docComment ind (ascii " *") d) ↔ _
  rw [one_comment hi ⟨[42], by decide⟩]
  refine forall_congr' fun l => forall_congr' fun hl => ?_
  have hc := splitLines_closes hd l (docLines_sub hl)
  rw [show ascii " *" = [32, 42] from by decide, List.cons_append, closes_cons (by decide), List.singleton_append, closes]
  by_cases h : l.head? = some 47
  · rw [if_pos ⟨rfl, h⟩]; simp [h]
  · rw [if_neg fun x => h x.2]; exact ⟨fun _ => h, fun _ => hc⟩

theorem upper_star : ∀ c : Byte, upper c = 42 → c = 42 := by decide +kernel
theorem lower_star : ∀ c : Byte, lower c = 42 → c = 42 := by decide +kernel

theorem camel_star : ∀ r : Bytes, 42 ∈ camel r → 42 ∈ r
  | [], h => h
  | [_], h => h
  | c :: d :: r, h => by
    rw [camel] at h
    split at h
    · rcases List.mem_cons.1 h with h | h
      · rw [upper_star d h.symm]; simp
      · exact List.mem_cons_of_mem _ (List.mem_cons_of_mem _ (camel_star r h))
    · rcases List.mem_cons.1 h with h | h
      · rw [h]; exact List.mem_cons_self
      · exact List.mem_cons_of_mem _ (camel_star (d :: r) h)

theorem publicize_star {v : Bytes} (h : 42 ∈ publicize v) : 42 ∈ v := by
  cases v with
  | nil => exact h
  | cons c r =>
    rcases List.mem_cons.1 h with h | h
    · rw [upper_star c h.symm]; exact List.mem_cons_self
    · exact List.mem_cons_of_mem _ (camel_star r h)

theorem fieldName_star {v : Bytes} (h : Identifier v) : 42 ∉ fieldName v := by
  have hv : 42 ∉ v := by
    obtain ⟨c, r, rfl, hc, hr⟩ := h
    intro hm
    rcases List.mem_cons.1 hm with rfl | hm
    · revert hc; decide
    · have := hr _ hm; revert this; decide
  intro hm
  have hm := publicize_star hm
  rcases goName_eq v with e | e
  · rw [e] at hm; exact hv hm
  · rw [e, List.mem_append] at hm
    rcases hm with hm | hm
    · obtain ⟨c, hc, he⟩ := List.mem_map.1 hm
      rw [lower_star c he] at hc
      exact hv hc
    · revert hm; decide

theorem closes_members : ∀ (ms : List (Bytes × Option Bytes)), (∀ m ∈ ms, Identifier m.1 ∧ ∀ d, m.2 = some d → closes d = none) →
    closes (memberDocs ms) = none ∧ (memberDocs ms).head? ≠ some 47
  | [], _ => ⟨rfl, by simp [memberDocs]⟩
  | (n, d) :: ms, h => by
    obtain ⟨ih, hh⟩ := closes_members ms fun m hm => h m (List.mem_cons_of_mem _ hm)
    obtain ⟨hn, hd⟩ := h _ List.mem_cons_self
    refine ⟨?_, by simp [memberDocs, show ascii " - " = [32, 45, 32] from by decide]⟩
    rw [memberDocs, List.flatMap_cons, ← memberDocs, closes_both hh]
    refine ⟨?_, ih⟩
    cases d with
    | none =>
      rw [closes_both (by simp)]
      refine ⟨closes_plain ?_, rfl⟩
      rw [List.mem_append]
      rintro (h | h)
      · revert h; decide
      · exact fieldName_star hn h
    | some d =>
      show closes (ascii " - " ++ fieldName n ++ (ascii ": " ++ d)) = none
      rw [closes_both (by simp [show ascii ": " = [58, 32] from by decide])]
      refine ⟨closes_plain ?_, ?_⟩
      · rw [List.mem_append]
        rintro (h | h)
        · revert h; decide
        · exact fieldName_star hn h
      · rw [show ascii ": " = [58, 32] from by decide, List.cons_append, closes_cons (by decide), List.singleton_append, closes_cons (by decide)]
        exact hd d rfl

/-- C200 for structs and functions. -/
theorem C200_structs_partial {ind sub : Bytes} (hi : ∀ c ∈ ind, c = 32) (hs : sub ∈ [ascii "Attributes", ascii "Parameters"])
    {doc : Option Bytes} {ms : List (Bytes × Option Bytes)} (hd : ∀ d, doc = some d → closes d = none)
    (hm : ∀ m ∈ ms, Identifier m.1 ∧ ∀ d, m.2 = some d → closes d = none) :
    structDoc ind sub doc ms = [] ∨ OneComment (structDoc ind sub doc ms) := by
  unfold structDoc
  by_cases h0 : doc = none ∧ ms = []
  · rw [if_pos h0]; exact .inl rfl
  rw [if_neg h0, one_comment hi ⟨[42, 32], by decide⟩]
  right
  intro l hl
  rw [show ascii " * " = [32, 42, 32] from by decide, List.cons_append, closes_cons (by decide), List.cons_append, closes, if_neg (by simp),
    List.singleton_append, closes_cons (by decide)]
  refine splitLines_closes ?_ l (docLines_sub hl)
  have hdoc : closes (doc.getD []) = none := by
    cases doc with
    | none => rfl
    | some d => exact hd d rfl
  by_cases h1 : ms = []
  · rw [if_pos h1, List.append_nil]; exact hdoc
  rw [if_neg h1]
  have hsub : closes (sub ++ ascii ":\n") = none ∧ (sub ++ ascii ":\n").head? ≠ some 47 := by
    simp only [List.mem_cons, List.not_mem_nil, or_false] at hs
    rcases hs with rfl | rfl <;> decide
  obtain ⟨k1, k2⟩ := closes_members ms hm
  have hrest : closes (sub ++ ascii ":\n" ++ memberDocs ms) = none := (closes_both k2).2 ⟨hsub.1, k1⟩
  have hhead : (sub ++ ascii ":\n" ++ memberDocs ms).head? ≠ some 47 := by
    simp only [List.mem_cons, List.not_mem_nil, or_false] at hs
    rcases hs with rfl | rfl
    · rw [show ascii "Attributes" = 65 :: (ascii "Attributes").tail from by decide]; simp
    · rw [show ascii "Parameters" = 80 :: (ascii "Parameters").tail from by decide]; simp
  rw [List.append_assoc, List.append_assoc, ← List.append_assoc sub]
  cases doc with
  | none => exact hrest
  | some d =>
    show closes (d ++ ([10] ++ (sub ++ ascii ":\n" ++ memberDocs ms))) = none
    rw [closes_both (by simp), List.singleton_append, closes_cons (by decide)]
    exact ⟨hdoc, hrest⟩

/-! The lines of the comment of a struct. -/

theorem splitLines_append : ∀ a b : Bytes, splitLines (a ++ [10] ++ b) = splitLines a ++ splitLines b
  | [], b => by simp [splitLines]
  | c :: r, b => by
    have ih := splitLines_append r b
    rw [List.cons_append, List.cons_append, splitLines, splitLines, ih]
    by_cases hc : c = 10
    · rw [if_pos hc, if_pos hc]; rfl
    · rw [if_neg hc, if_neg hc]
      cases h : splitLines r with
      | nil => exact absurd h (splitLines_ne r)
      | cons l ls => rfl

theorem splitLines_plain : ∀ {a : Bytes}, 10 ∉ a → splitLines a = [a]
  | [], _ => rfl
  | c :: r, h => by
    rw [splitLines, if_neg fun e => h (by rw [e]; exact .head _), splitLines_plain fun x => h (.tail _ x)]

/-- The lines of a text that ends with a line end. -/
theorem docLines_ended (a : Bytes) : docLines (a ++ [10]) = splitLines a := by
  have h : splitLines (a ++ [10]) = splitLines a ++ [[]] := by
    have := splitLines_append a []
    rwa [List.append_nil] at this
  unfold docLines
  rw [h, if_pos (by simp), List.dropLast_concat]

/-- The lines about one member. -/
def memberLines (m : Bytes × Option Bytes) : List Bytes :=
  splitLines (ascii " - " ++ fieldName m.1 ++ match m.2 with
    | some d => ascii ": " ++ d
    | none => [])

/-- What is printed about structs and functions: the lines of the documentation, an empty
line and, under the heading, each member on a line of its own, with its documentation. -/
theorem C200_lines_partial {ind sub d : Bytes} {ms : List (Bytes × Option Bytes)} (h0 : ms ≠ []) (hs : 10 ∉ sub) :
    structDoc ind sub (some (d ++ [10])) (ms.map fun m => (m.1, m.2.map (· ++ [10]))) = ind ++ ascii "/**\n" ++
      ((splitLines d ++ [[], sub ++ [58]] ++ ms.flatMap memberLines).flatMap fun l => ind ++ ascii " * " ++ l ++ [10]) ++ ind ++ ascii " */\n" := by
  unfold structDoc
  rw [if_neg (by simp), if_neg (by simpa using h0)]
  show docComment ind _ (d ++ [10] ++ ([10] ++ sub ++ ascii ":\n" ++ _)) = _
  have hm : ∀ ms : List (Bytes × Option Bytes), splitLines (memberDocs (ms.map fun m => (m.1, m.2.map (· ++ [10])))) = ms.flatMap memberLines ++ [[]] := by
    intro ms
    induction ms with
    | nil => rfl
    | cons m ms ih =>
      obtain ⟨n, x⟩ := m
      rw [List.map_cons, memberDocs, List.flatMap_cons, ← memberDocs, List.flatMap_cons, memberLines]
      cases x with
      | none =>
        show splitLines (ascii " - " ++ fieldName n ++ [10] ++ _) = _
        rw [splitLines_append, ih, List.append_nil, List.append_assoc]
      | some x =>
        show splitLines (ascii " - " ++ fieldName n ++ (ascii ": " ++ (x ++ [10])) ++ _) = _
        rw [← List.append_assoc (ascii ": "), ← List.append_assoc _ _ [10], splitLines_append, ih]
        simp only [List.append_assoc]
  have hl : splitLines (d ++ [10] ++ ([10] ++ sub ++ ascii ":\n" ++ memberDocs (ms.map fun m => (m.1, m.2.map (· ++ [10]))))) =
      splitLines d ++ [[], sub ++ [58]] ++ ms.flatMap memberLines ++ [[]] := by
    rw [splitLines_append, show ascii ":\n" = [58] ++ [10] from by decide, List.append_assoc, List.append_assoc, ← List.nil_append ([10] ++ _), ← List.append_assoc [],
      splitLines_append, ← List.append_assoc, ← List.append_assoc sub,
      ← List.append_assoc sub, splitLines_append, splitLines_plain (a := sub ++ [58]), hm]
    · simp [splitLines]
    · intro h
      rcases List.mem_append.1 h with h | h
      · exact hs h
      · revert h; decide
  unfold docComment docLines
  rw [hl, if_pos List.getLast?_concat, List.dropLast_concat]

/-- C200 does not hold: a line of the documentation of a typedef, enum or service that
begins with a slash closes the comment. -/
theorem C200_violated : ¬ C200_statement := by
  intro h
  have h := (h [] (some (ascii "/etc/hosts\n")) [] (by simp) (fun d hd => by cases hd; decide) (by simp)).1
  rcases h with h | h
  · revert h; decide
  · exact absurd rfl ((C200_generic_partial (by simp) (by decide)).1 h (ascii "/etc/hosts") (by decide))

/-- What is printed there. -/
example : genericDoc [] (some (ascii "/etc/hosts\n")) = ascii "/**\n */etc/hosts\n */\n" := by decide
example : structDoc [] (ascii "Attributes") (some (ascii "A\nB\n")) [(ascii "message", none), (ascii "n", some (ascii "text\n"))] =
    ascii "/**\n * A\n * B\n * \n * Attributes:\n *  - Message\n *  - N: text\n */\n" := by decide +kernel
/-- The hypotheses are met. -/
example := (C200_generic_partial (ind := []) (by simp) (d := ascii "a file\n") (by decide)).2 (by decide)
example := C200_structs_partial (ind := [32, 32]) (by simp) (List.mem_cons_self (l := [ascii "Parameters"])) (doc := some (ascii "A\n"))
  (ms := [(ascii "message", some (ascii "/usr\n"))]) (fun d hd => by cases hd; decide)
  (fun m hm => by rw [List.mem_singleton.1 hm]; exact ⟨by decide, fun d hd => by cases hd; decide⟩)

example := C200_lines_partial (ind := []) (sub := ascii "Attributes") (d := ascii "A") (ms := [(ascii "x", none)]) (by decide) (by decide)

/-! ## C201: modules are imported from where they are put -/

/-- C201: the path by which a file imports a module is the way from the output directory
to the files of the module. -/
def C201_statement : Prop := ∀ out m : Bytes, m ≠ [] → packageDir out m = out ++ [47] ++ importPath m

theorem slashed_plain {m : Bytes} (h : 46 ∉ m) : slashed m = m := by
  unfold slashed
  conv => rhs; rw [← List.map_id m]
  refine List.map_congr_left fun c hc => ?_
  rw [if_neg]; rfl
  rintro rfl; exact h hc

theorem slashed_takeWhile {m : Bytes} (h : 46 ∈ m) :
    slashed m = m.takeWhile (· ≠ 46) ++ [47] ++ slashed (m.dropWhile (· ≠ 46)).tail := by
  induction m with
  | nil => simp at h
  | cons c r ih =>
    by_cases hc : c = 46
    · subst hc; simp [slashed]
    · have hr : 46 ∈ r := by
        rcases List.mem_cons.1 h with h | h
        · exact absurd h.symm hc
        · exact h
      rw [List.takeWhile_cons_of_pos (by simpa using hc), List.dropWhile_cons_of_pos (by simpa using hc)]
      show (if c = 46 then 47 else c) :: slashed r = _
      rw [if_neg hc, ih hr]; rfl

theorem takeWhile_dot : ∀ m : Bytes, 46 ∉ m.takeWhile (· ≠ 46)
  | [] => by simp
  | c :: r => by
    rw [List.takeWhile_cons]
    split
    · rename_i h
      intro hm
      rcases List.mem_cons.1 hm with rfl | hm
      · simp at h
      · exact takeWhile_dot r hm
    · simp

/-- The loop follows the dots of the module. -/
theorem packageLoop_dir (dir name m : Bytes) (hm : m = [] ∨ m.getLast? ≠ some 46) :
    (packageLoop dir name m).2.1 = if m = [] then dir else dir ++ [47] ++ slashed m := by
  fun_induction packageLoop dir name m with
  | case1 => simp
  | case2 dir m h0 h1 r ih =>
    rw [if_neg h0]
    have hne : (m.dropWhile (· ≠ 46)).tail ≠ [] ∧ (m.dropWhile (· ≠ 46)).tail.getLast? = m.getLast? := by
      have hl := hm.resolve_left h0
      clear ih r hm h0
      induction m with
      | nil => simp at h1
      | cons c s ihs =>
        by_cases hc : c = 46
        · subst hc
          rw [List.dropWhile_cons_of_neg (by simp), List.tail_cons]
          cases s with
          | nil => simp at hl
          | cons x y => exact ⟨by simp, by rw [List.getLast?_cons_cons]⟩
        · rw [List.dropWhile_cons_of_pos (by simpa using hc)]
          have hs : 46 ∈ s := by
            rcases List.mem_cons.1 h1 with h | h
            · exact absurd h.symm hc
            · exact h
          have hl' : (c :: s).getLast? = s.getLast? := by
            cases s with
            | nil => simp at hs
            | cons x y => rw [List.getLast?_cons_cons]
          rw [hl'] at hl ⊢
          exact ihs hs hl
    have := ih (.inr (by rw [hne.2]; exact hm.resolve_left h0))
    show r.2.1 = _
    rw [this, if_neg hne.1, slashed_takeWhile h1]
    simp only [List.append_assoc]
  | case3 dir m h0 h1 => rw [if_neg h0, slashed_plain h1]

/-- C201, exactly: it holds of the modules without a dot. -/
theorem C201_partial (out : Bytes) {m : Bytes} (h0 : m ≠ []) (hl : m.getLast? ≠ some 46) :
    packageDir out m = out ++ [47] ++ importPath m ↔ 46 ∉ m := by
  unfold packageDir
  rw [packageLoop_dir out [] m (.inr hl), if_neg h0]
  constructor
  · intro h hm
    have h := List.append_cancel_left h
    have : 46 ∈ slashed m := by rw [h]; exact hm
    obtain ⟨c, _, hc⟩ := List.mem_map.1 this
    by_cases hd : c = 46
    · rw [if_pos hd] at hc; revert hc; decide
    · rw [if_neg hd] at hc; exact hd hc
  · intro h; rw [slashed_plain h]; rfl

/-- C201 does not hold: `a.b` is put into `a/b` and imported as `a.b`. -/
theorem C201_violated : ¬ C201_statement := fun h =>
  (C201_partial [111] (m := ascii "a.b") (by decide) (by decide)).1 (h [111] _ (by decide)) (by decide)

/-- The command line program imports its service from where it is put. -/
theorem C201_remote_partial (out : Bytes) {m : Bytes} (h0 : m ≠ []) (hl : m.getLast? ≠ some 46) :
    packageDir out m = out ++ [47] ++ remoteImportPath m := by
  unfold packageDir
  rw [packageLoop_dir out [] m (.inr hl), if_neg h0]; rfl

/-- Nothing is put into a directory that was not made, and no directory is made before the
one that holds it: each is the one before with one more component. -/
theorem C201_made_partial (out m : Bytes) : (packageDirs out m).head? = some out ∧ (packageDirs out m).getLast? = some (packageDir out m) ∧
    ∀ i a b, (packageDirs out m)[i]? = some a → (packageDirs out m)[i + 1]? = some b → ∃ c, 46 ∉ c ∧ b = a ++ [47] ++ c := by
  unfold packageDirs packageDir
  suffices key : ∀ name : Bytes, (packageLoop out name m).1.head? = some out ∧ (packageLoop out name m).1.getLast? = some (packageLoop out name m).2.1 ∧
      ∀ i a b, (packageLoop out name m).1[i]? = some a → (packageLoop out name m).1[i + 1]? = some b → ∃ c, 46 ∉ c ∧ b = a ++ [47] ++ c from key []
  intro name
  fun_induction packageLoop out name m with
  | case1 => simp
  | case2 dir m h0 h1 r ih =>
    obtain ⟨i1, i2, i3⟩ := ih
    refine ⟨rfl, ?_, ?_⟩
    · show (dir :: r.1).getLast? = some r.2.1
      rw [← i2]
      cases hr : r.1 with
      | nil => rw [hr] at i1; simp at i1
      | cons x y => rw [List.getLast?_cons_cons]
    · intro i a b ha hb
      cases i with
      | zero =>
        obtain rfl : dir = a := by simpa using ha
        have : r.1[0]? = some b := hb
        rw [← List.head?_eq_getElem?, i1] at this
        injection this with this
        exact ⟨m.takeWhile (· ≠ 46), takeWhile_dot m, this.symm⟩
      | succ i => exact i3 i a b ha hb
  | case3 dir m h0 h1 =>
    refine ⟨rfl, rfl, ?_⟩
    intro i a b ha hb
    match i with
    | 0 =>
      obtain rfl : dir = a := by simpa using ha
      obtain rfl : dir ++ [47] ++ m = b := by simpa using hb
      exact ⟨m, h1, rfl⟩
    | i + 1 => simp at hb

theorem baseName_behind (a b : Bytes) (hb : 47 ∉ b) : baseName (a ++ [47] ++ b) = b := by
  unfold baseName
  rw [List.reverse_append, List.reverse_append, List.takeWhile_append_of_pos]
  · simp
  · intro c hc
    simp only [decide_eq_true_eq]
    rintro rfl
    exact hb (List.mem_reverse.1 hc)

/-- The package clause names the package as files that import it from there do. -/
theorem C201_package_partial (out : Bytes) {m : Bytes} (h0 : m ≠ []) (hl : m.getLast? ≠ some 46) (hs : 47 ∉ m) :
    packageName m = baseName (packageDir out m) := by
  unfold packageName packageDir
  have key : ∀ (d1 d2 name m : Bytes), m ≠ [] → m.getLast? ≠ some 46 → 47 ∉ m →
      (packageLoop d1 name m).2.2 = baseName (packageLoop d2 name m).2.1 := by
    intro d1 d2 name m
    fun_induction packageLoop d1 name m generalizing d2 with
    | case1 => intro h; exact absurd rfl h
    | case2 dir m h0 h1 r ih =>
      intro _ hl hs
      rw [packageLoop, if_neg h0, if_pos h1]
      have hsub : ∀ c ∈ (m.dropWhile (· ≠ 46)).tail, c ∈ m := fun c hc =>
        (List.dropWhile_sublist _).subset (List.mem_of_mem_tail hc)
      have hsuf : (m.dropWhile (· ≠ 46)).tail ≠ [] ∧ (m.dropWhile (· ≠ 46)).tail.getLast? ≠ some 46 := by
        have hd := List.takeWhile_append_dropWhile (p := fun x => decide (x ≠ 46)) (l := m)
        cases hq : m.dropWhile (· ≠ 46) with
        | nil =>
          rw [hq, List.append_nil] at hd
          rw [← hd] at h1
          exact absurd h1 (takeWhile_dot m)
        | cons x y =>
          have hx : x = 46 := by
            have := List.head?_dropWhile_not (fun x => decide (x ≠ 46)) m
            rw [hq] at this
            simpa using this
          subst hx
          rw [hq] at hd
          rw [List.tail_cons]
          have hy : y ≠ [] := by
            rintro rfl
            apply hl
            rw [← hd]; simp
          refine ⟨hy, fun he => hl ?_⟩
          rw [← hd, List.getLast?_append]
          cases y with
          | nil => exact absurd rfl hy
          | cons p q => rw [List.getLast?_cons_cons, he]; rfl
      exact ih _ hsuf.1 hsuf.2 fun h => hs (hsub _ h)
    | case3 dir m h0 h1 =>
      intro _ _ hs
      rw [packageLoop, if_neg h0, if_neg h1]
      exact (baseName_behind _ _ hs).symm
  exact key [] out [] m h0 hl hs

example : packageDirs (ascii "gen") (ascii "a.b") = [ascii "gen", ascii "gen/a", ascii "gen/a/b"] := by decide +kernel
/-- The hypotheses are met. -/
example := C201_partial (ascii "gen") (m := ascii "tutorial") (by decide) (by decide)
example := C201_remote_partial (ascii "gen") (m := ascii "a.b") (by decide) (by decide)
example := C201_package_partial (ascii "gen") (m := ascii "a.b") (by decide) (by decide) (by decide)

/-! ## C202: constants and the values of enums have names of their own -/

/-- C202: constants of different names have different names in Go, and no constant has that
of a value of an enum. -/
def C202_statement : Prop :=
  (∀ t u a b : Bytes, Identifier t → Identifier u → Identifier a → Identifier b → constName t a = constName u b → a = b) ∧
  ∀ (t a : Bytes) (e : Enum), Identifier t → Identifier a → ∀ c ∈ e.values, constName t a ≠ e.text c.1

/-- C202 does not hold: `x` and `X` have one name. -/
theorem C202_violated : ¬ C202_statement := fun h =>
  absurd (h.1 (ascii "i32") (ascii "i32") (ascii "x") (ascii "X") (by decide +kernel) (by decide +kernel) (by decide +kernel) (by decide +kernel)
    (by decide +kernel)) (by decide)

/-- C202 does not hold: `a` of type `T` and `A` of the enum `T` have one name. -/
theorem C202_enum_violated : ¬ C202_statement := fun h =>
  h.2 (ascii "T") (ascii "a") ⟨ascii "T", [(ascii "A", none)]⟩ (by decide +kernel) (by decide +kernel) _ List.mem_cons_self (by decide +kernel)

/-- C202 does not hold: two underscores make one, which is taken for the one behind the
name of the type. -/
theorem C202_underscore_violated : ¬ C202_statement := fun h =>
  absurd (h.1 (ascii "a__b") (ascii "a") (ascii "c") (ascii "b__c") (by decide +kernel) (by decide +kernel) (by decide +kernel) (by decide +kernel)
    (by decide +kernel)) (by decide)

theorem publicize_plain {t : Bytes} (h : 95 ∉ t) : 95 ∉ publicize t := by
  cases t with
  | nil => exact h
  | cons c r =>
    have key : ∀ c : Byte, upper c = 95 → c = 95 := by decide +kernel
    rw [publicize, camel_plain r fun x => h (.tail _ x)]
    intro hm
    rcases List.mem_cons.1 hm with e | hm
    · exact h (by rw [key c e.symm]; exact .head _)
    · exact h (.tail _ hm)

theorem first_underscore : ∀ {a c : Bytes} {b d : Bytes}, 95 ∉ a → 95 ∉ c → (a ++ [95] ++ b = c ++ [95] ++ d ↔ a = c ∧ b = d)
  | [], [], b, d, _, _ => by simp
  | [], y :: c, b, d, _, h => by
    constructor
    · intro e; cases e; exact absurd (List.mem_cons_self) h
    · rintro ⟨e, -⟩; cases e
  | x :: a, [], b, d, h, _ => by
    constructor
    · intro e; cases e; exact absurd (List.mem_cons_self) h
    · rintro ⟨e, -⟩; cases e
  | x :: a, y :: c, b, d, h1, h2 => by
    have ih := first_underscore (b := b) (d := d) (fun m => h1 (.tail _ m)) (fun m => h2 (.tail _ m))
    rw [List.cons_append, List.cons_append, List.cons_append, List.cons_append, List.cons.injEq, ih, List.cons.injEq, and_assoc]

/-- C202, exactly, for types without underscores: constants share a name if the names of
their types and their own names do in Go. -/
theorem C202_partial {t u : Bytes} (a b : Bytes) (ht : 95 ∉ t) (hu : 95 ∉ u) :
    constName t a = constName u b ↔ publicize t = publicize u ∧ publicize a = publicize b :=
  first_underscore (publicize_plain ht) (publicize_plain hu)

/-- A constant and a value of an enum. -/
theorem C202_enum_partial {t : Bytes} (a : Bytes) {e : Enum} (n : Bytes) (ht : 95 ∉ t) (he : 95 ∉ e.name) :
    constName t a = e.text n ↔ publicize t = publicize e.name ∧ publicize a = n :=
  first_underscore (publicize_plain ht) (publicize_plain he)

/-- Names without underscores are one in Go if they differ at most in the case of their
first letter. -/
theorem C202_name_partial {c d : Byte} {r s : Bytes} (hr : 95 ∉ r) (hs : 95 ∉ s) :
    publicize (c :: r) = publicize (d :: s) ↔ upper c = upper d ∧ r = s := by
  rw [publicize, publicize, camel_plain r hr, camel_plain s hs, List.cons.injEq]

/-- A constant of a base type never has the name of a value of an enum, as far as enums are
not called like base types. -/
theorem C202_base_partial {t : Bytes} (a : Bytes) {e : Enum} (n : Bytes)
    (ht : t ∈ ["bool", "byte", "i16", "i32", "i64", "double", "string", "binary"].map ascii) (he : 95 ∉ e.name)
    (hn : publicize e.name ∉ ["Bool", "Byte", "I16", "I32", "I64", "Double", "String", "Binary"].map ascii) : constName t a ≠ e.text n := by
  intro h
  have hu : 95 ∉ t := by clear h; revert t; decide +kernel
  refine hn ?_
  rw [← ((C202_enum_partial a n hu he).1 h).1]
  clear h hu
  revert t
  decide +kernel

example : constName (ascii "i32") (ascii "max_size") = ascii "I32_MaxSize" := by decide +kernel
/-- The hypotheses are met. -/
example := C202_partial (t := ascii "i32") (u := ascii "Colour") (ascii "x") (ascii "a_b") (by decide) (by decide)
example := C202_base_partial (t := ascii "i32") (ascii "x") (e := ⟨ascii "Colour", [(ascii "RED", none)]⟩) (ascii "RED") (by decide +kernel) (by decide) (by decide +kernel)

end Thrift.Emit
