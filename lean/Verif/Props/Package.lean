import Verif.Model.Package
import Verif.Props.Emitted
import Verif.Lemmas.JsonValue
/-!
# C173 … C177: Go accepts the package that is generated

Imports, names of helper types, fields and methods.
-/

namespace Thrift.Emit

/-! ## C173: the files of a program import what they use, first -/

/-- C173: every file generated for a program stands up to Go's rules about
imports: they come first, each is used, none is the package itself. -/
def C173_statement : Prop :=
  ∀ p : Program, Accepted p.module (typesFile p) ∧ ∀ s ∈ p.services, Accepted p.module (serviceFile s)

theorem imported_append (a b : List Top) : imported (a ++ b) = imported a ++ imported b := by
  induction a with
  | nil => rfl
  | cons x r ih => cases x <;> simp [imported, ih]

theorem mentioned_append (a b : List Top) : mentioned (a ++ b) = mentioned a ++ mentioned b := by
  induction a with
  | nil => rfl
  | cons x r ih => cases x <;> simp [mentioned, ih]

theorem imported_decls (f : α → List Bytes) (l : List α) : imported (l.map fun x => Top.decl (f x)) = [] := by
  induction l with
  | nil => rfl
  | cons x r ih => exact ih

theorem imported_imps (l : List Bytes) : imported (l.map Top.imp) = l := by
  induction l with
  | nil => rfl
  | cons x r ih => show x :: _ = _; rw [ih]

theorem mentioned_imps (l : List Bytes) : mentioned (l.map Top.imp) = [] := by
  induction l with
  | nil => rfl
  | cons x r ih => exact ih

theorem mentioned_decls (f : α → List Bytes) (l : List α) : mentioned (l.map fun x => Top.decl (f x)) = l.flatMap f := by
  induction l with
  | nil => rfl
  | cons x r ih => show f x ++ _ = _; rw [ih]; rfl

theorem TTy.mentions_thrift (t : TTy) : ∀ x ∈ t.mentions, x = ascii "thrift" := by
  cases t <;> simp [TTy.mentions]

theorem typesFile_imported (p : Program) :
    imported (typesFile p) = [ascii "fmt", ascii "math", ascii "thrift"] ++ p.includes := by
  simp only [typesFile, imported_append, imported_imps, imported_decls, structTop]
  simp [goImports, imported]

theorem typesFile_mentioned (p : Program) (x : Bytes) : x ∈ mentioned (typesFile p) ↔
    x = ascii "math" ∨ (x ∈ p.typedefs.flatMap fun t => t.2.mentions) ∨ (x ∈ p.consts.flatMap TTy.mentions) ∨
      (p.structs ≠ [] ∧ (x = ascii "thrift" ∨ x = ascii "fmt")) ∨ x ∈ p.consts.flatMap fun t => t.behind.mentions := by
  simp only [typesFile, mentioned_append, mentioned_imps, mentioned_decls, structTop]
  cases p.structs with
  | nil => simp [goImports, mentioned]
  | cons a r => simp [goImports, mentioned]; grind

/-- Exactly the programs that include nothing and declare a struct or exception
have an acceptable `ttypes.go` (whatever the module, unless it is called like one
of the imported packages). -/
theorem C173_types (p : Program) : Accepted p.module (typesFile p) ↔
    p.includes = [] ∧ p.structs ≠ [] ∧ p.module ∉ [ascii "fmt", ascii "math", ascii "thrift"] := by
  constructor
  · intro h
    have hi : p.includes = [] := by
      have := h.order
      simp only [typesFile, goImports, List.cons_append, List.nil_append, Grammatical, imported_append,
        imported_imps, List.append_eq_nil_iff] at this
      exact this.1.1.1.1.1
    refine ⟨hi, fun hs => ?_, ?_⟩
    · have := h.used (ascii "fmt") (by rw [typesFile_imported]; exact .head _)
      rw [show baseName (ascii "fmt") = ascii "fmt" by decide +kernel, typesFile_mentioned, hs] at this
      have no : ∀ t : TTy, ascii "fmt" ∉ t.mentions := fun t hx =>
        absurd (t.mentions_thrift _ hx) (by decide +kernel)
      rcases this with h | h | h | h | h
      · exact absurd h (by decide +kernel)
      · obtain ⟨t, _, ht⟩ := List.mem_flatMap.1 h; exact no _ ht
      · obtain ⟨t, _, ht⟩ := List.mem_flatMap.1 h; exact no _ ht
      · exact h.1 rfl
      · obtain ⟨t, _, ht⟩ := List.mem_flatMap.1 h; exact no _ ht
    · have := h.others
      rw [typesFile_imported, hi, List.append_nil] at this
      exact this
  · rintro ⟨hi, hs, hm⟩
    refine ⟨?_, fun q hq => ?_, ?_⟩
    · simp only [typesFile, goImports, List.cons_append, List.nil_append, Grammatical, imported_append,
        imported_imps, imported_decls, structTop, hi]
      rfl
    · rw [typesFile_imported, hi, List.append_nil] at hq
      rw [typesFile_mentioned]
      simp only [List.mem_cons, List.not_mem_nil, or_false] at hq
      rcases hq with rfl | rfl | rfl
      · exact .inr (.inr (.inr (.inl ⟨hs, .inr (by decide +kernel)⟩)))
      · exact .inl (by decide +kernel)
      · exact .inr (.inr (.inr (.inl ⟨hs, .inl (by decide +kernel)⟩)))
    · rw [typesFile_imported, hi, List.append_nil]
      exact hm

theorem serviceFile_imported (s : Svc) :
    imported (serviceFile s) = [ascii "fmt", ascii "math", ascii "thrift"] ++ (s.parent.map (·.1)).toList := by
  have h : imported (s.functions.flatMap fun _ => [structTop, structTop]) = [] := by
    induction s.functions with
    | nil => rfl
    | cons f r ih => exact ih
  rw [serviceFile, imported_append, imported_append, imported, h]
  cases s.parent <;> rfl

/-- Exactly the services with a function that extend no other have an acceptable
file. -/
theorem C173_services (own : Bytes) (s : Svc) : Accepted own (serviceFile s) ↔
    s.parent = none ∧ s.functions ≠ [] ∧ own ∉ [ascii "fmt", ascii "math", ascii "thrift"] := by
  have hf : s.functions = [] → s.parent = none → ascii "fmt" ∉ mentioned (serviceFile s) := by
    intro h1 h2
    rw [serviceFile, h1, h2]
    decide +kernel
  constructor
  · intro h
    have hp : s.parent = none := by
      cases hq : s.parent with
      | none => rfl
      | some q =>
        have := h.order
        simp only [serviceFile, goImports, hq, Option.map_some, Option.toList_some, List.cons_append,
          List.nil_append, Grammatical, imported] at this
        cases this
    refine ⟨hp, fun h1 => ?_, ?_⟩
    · have := h.used (ascii "fmt") (by rw [serviceFile_imported]; exact .head _)
      rw [show baseName (ascii "fmt") = ascii "fmt" by decide +kernel] at this
      exact hf h1 hp this
    · have := h.others
      rw [serviceFile_imported, hp] at this
      exact this
  · rintro ⟨hp, h1, ho⟩
    have him := serviceFile_imported s
    rw [hp] at him
    refine ⟨?_, fun q hq => ?_, by rw [him]; exact ho⟩
    · have : imported (serviceFile s) = [ascii "fmt", ascii "math", ascii "thrift"] := him
      simp only [serviceFile, goImports, hp, Option.map_none, Option.toList_none, List.cons_append,
        List.nil_append, imported, List.append_nil, List.cons.injEq, true_and] at this
      simpa only [serviceFile, goImports, hp, Option.map_none, Option.toList_none, List.cons_append,
        List.nil_append, Grammatical, imported] using this
    · rw [him] at hq
      obtain ⟨f, r, hr⟩ := List.exists_cons_of_ne_nil h1
      rw [serviceFile, hp, hr]
      simp only [Option.map_none, Option.toList_none, List.append_nil, List.mem_cons, List.not_mem_nil, or_false] at hq
      rcases hq with rfl | rfl | rfl
      · exact List.mem_of_elem_eq_true rfl
      · exact List.mem_of_elem_eq_true rfl
      · exact List.mem_of_elem_eq_true rfl

/-- A program that only declares an enum. -/
def enumOnly : Program :=
  { module := ascii "colours", includes := [], typedefs := [],
    enums := [⟨ascii "Colour", [(ascii "RED", none)]⟩], consts := [], structs := [], services := [] }

/-- `fmt` is imported for the structs, whether there are any or not. -/
theorem C173_violated : ¬ C173_statement := fun h =>
  (C173_types enumOnly).1 (h enumOnly).1 |>.2.1 rfl

/-- Other files are imported behind a function. -/
theorem C173_include_violated : ¬ C173_statement := fun h => by
  have := (C173_types { enumOnly with includes := [ascii "shared"], structs := [ascii "Point"] }).1 (h _).1
  exact absurd this.1 (by decide +kernel)

/-- A service that extends another imports the other's package behind a function,
even where it is its own. -/
theorem C173_extends_violated : ¬ C173_statement := fun h => by
  have := (C173_services _ ⟨ascii "B", [⟨ascii "ping", []⟩], some (ascii "colours", ascii "A")⟩).1
    ((h { enumOnly with structs := [ascii "Point"],
                        services := [⟨ascii "B", [⟨ascii "ping", []⟩], some (ascii "colours", ascii "A")⟩] }).2 _ (.head _))
  exact absurd this.1 (by decide +kernel)

/-- Holds for programs that include no file, declare a struct, and have only
services with functions and without parents.  Missing: all others, by the two
equivalences above. -/
theorem C173_partial (p : Program) (hi : p.includes = []) (hs : p.structs ≠ [])
    (hm : p.module ∉ [ascii "fmt", ascii "math", ascii "thrift"])
    (hv : ∀ s ∈ p.services, s.parent = none ∧ s.functions ≠ []) :
    Accepted p.module (typesFile p) ∧ ∀ s ∈ p.services, Accepted p.module (serviceFile s) :=
  ⟨(C173_types p).2 ⟨hi, hs, hm⟩, fun s h => (C173_services _ s).2 ⟨(hv s h).1, (hv s h).2, hm⟩⟩

example : Accepted (ascii "colours") (typesFile { enumOnly with structs := [ascii "Point"] }) :=
  (C173_partial { enumOnly with structs := [ascii "Point"] } rfl (by decide +kernel) (by decide +kernel)
    (by intro s h; cases h)).1

/-! ## C174: the command line program imports what it uses -/

/-- C174: the program generated for calling a service from the command line uses
every package it imports. -/
def C174_statement : Prop :=
  ∀ (module : Bytes) (s : Svc), ∀ p ∈ imported (remoteFile module s), baseName p ∈ mentioned (remoteFile module s)

theorem remoteFile_mentioned (module : Bytes) (s : Svc) (x : Bytes) : x ∈ mentioned (remoteFile module s) ↔
    x ∈ [ascii "flag", ascii "url", ascii "thrift", ascii "fmt", ascii "net", ascii "os"] ∨
      x = baseName (slashed module) ∨
      (x = ascii "strconv" ∧ ∃ f ∈ s.functions, ∃ a ∈ f.args, a.2.2.parsed) := by
  have key : (x ∈ s.functions.flatMap fun f => f.args.flatMap fun a =>
      if a.2.2.parsed then [ascii "strconv"] else []) ↔
      (x = ascii "strconv" ∧ ∃ f ∈ s.functions, ∃ a ∈ f.args, a.2.2.parsed) := by
    simp only [List.mem_flatMap]
    constructor
    · rintro ⟨f, hf, a, ha, hx⟩
      split at hx
      · exact ⟨List.mem_singleton.1 hx, f, hf, a, ha, by assumption⟩
      · cases hx
    · rintro ⟨rfl, f, hf, a, ha, hp⟩
      exact ⟨f, hf, a, ha, by rw [if_pos hp]; exact .head _⟩
  rw [remoteFile, mentioned_append, mentioned_imps]
  simp only [mentioned, List.nil_append, List.mem_append, key]
  simp only [List.mem_cons, List.not_mem_nil, or_false]
  grind

theorem remoteFile_imported (module : Bytes) (s : Svc) :
    imported (remoteFile module s) = remoteImports ++ [slashed module] := by
  rw [remoteFile, imported_append, imported_imps]; rfl

/-- No such program compiles: `math` is imported and never used. -/
theorem C174_never_violated (module : Bytes) (s : Svc) (h : baseName (slashed module) ≠ ascii "math") :
    ascii "math" ∈ imported (remoteFile module s) ∧ baseName (ascii "math") ∉ mentioned (remoteFile module s) := by
  refine ⟨by rw [remoteFile_imported]; exact List.mem_append_left _ (by decide +kernel), ?_⟩
  rw [show baseName (ascii "math") = ascii "math" by decide +kernel, remoteFile_mentioned]
  rintro (x | x | x)
  · exact absurd x (by decide +kernel)
  · exact h x.symm
  · exact absurd x.1 (by decide +kernel)

theorem C174_violated : ¬ C174_statement := fun h =>
  (C174_never_violated (ascii "tutorial") ⟨ascii "S", [], none⟩ (by decide +kernel)).2
    (h _ _ _ (C174_never_violated (ascii "tutorial") ⟨ascii "S", [], none⟩ (by decide +kernel)).1)

/-- All other imports are used, `strconv` exactly when some function takes a
number or an enum.  Missing: `math`, and `strconv` for other services. -/
theorem C174_partial (module : Bytes) (s : Svc) (p : Bytes) (h : p ∈ imported (remoteFile module s))
    (hm : p ≠ ascii "math") (hb : baseName (slashed module) ∉ [ascii "math", ascii "strconv"]) :
    baseName p ∈ mentioned (remoteFile module s) ↔
      (p = ascii "strconv" → ∃ f ∈ s.functions, ∃ a ∈ f.args, a.2.2.parsed) := by
  rw [remoteFile_imported] at h
  rw [remoteFile_mentioned]
  rcases List.mem_append.1 h with h | h
  · simp only [remoteImports, List.mem_cons, List.not_mem_nil, or_false] at h
    have strc : ∀ q : Bytes, q ∈ [ascii "flag", ascii "fmt", ascii "net", ascii "net/url", ascii "os", ascii "thrift"] →
        baseName q ∈ [ascii "flag", ascii "url", ascii "thrift", ascii "fmt", ascii "net", ascii "os"] ∧
          q ≠ ascii "strconv" := by decide +kernel
    by_cases hs : p = ascii "strconv"
    · subst hs
      rw [show baseName (ascii "strconv") = ascii "strconv" by decide +kernel]
      constructor
      · rintro (x | x | x) _
        · exact absurd x (by decide +kernel)
        · exact absurd (by rw [← x]; decide +kernel) hb
        · exact x.2
      · exact fun x => .inr (.inr ⟨rfl, x rfl⟩)
    · have : p ∈ [ascii "flag", ascii "fmt", ascii "net", ascii "net/url", ascii "os", ascii "thrift"] := by
        simp only [List.mem_cons, List.not_mem_nil, or_false]
        grind
      exact ⟨fun _ x => absurd x hs, fun _ => .inl (strc p this).1⟩
  · rw [List.mem_singleton] at h
    subst h
    refine ⟨fun _ x => ?_, fun _ => .inr (.inl rfl)⟩
    rw [x] at hb
    exact absurd (by decide +kernel) hb

example : baseName (ascii "strconv") ∈ mentioned (remoteFile (ascii "tutorial")
    ⟨ascii "Calculator", [⟨ascii "add", [(1, ascii "a", .i32)]⟩], none⟩) :=
  (C174_partial _ _ (ascii "strconv") (by decide +kernel) (by decide +kernel) (by decide +kernel)).2
    fun _ => ⟨_, .head _, _, .head _, rfl⟩

/-! ## C175: the functions of a program have helper types of their own -/

/-- C175: if the functions of each service have different public names then all
structs for arguments and results in the package, and their constructors, have
different names. -/
def C175_statement : Prop :=
  ∀ services : List (List Bytes), (∀ fs ∈ services, (∀ f ∈ fs, Identifier f) ∧ (fs.map publicize).Nodup) →
    (helperNames services).Nodup

/-- Two services with a function of the same name. -/
theorem C175_violated : ¬ C175_statement := fun h =>
  absurd (h [[ascii "ping"], [ascii "ping"]] (by decide +kernel)) (by decide +kernel)

/-- A function whose name begins with `new`. -/
theorem C175_new_violated : ¬ C175_statement := fun h =>
  absurd (h [[ascii "user", ascii "newUser"]] (by decide +kernel)) (by decide +kernel)

theorem fnNames_eq (f : Bytes) (h : f ≠ []) : fnNames f =
    [publicize f ++ ascii "Args", ascii "New" ++ (publicize f ++ ascii "Args"),
      publicize f ++ ascii "Result", ascii "New" ++ (publicize f ++ ascii "Result")] := by
  rw [fnNames, ← (C132_processor f h).1, ← (C132_processor f h).2]; rfl

theorem args_ne_result (a b : Bytes) : a ++ ascii "Args" ≠ b ++ ascii "Result" := fun h => by
  have := congrArg List.getLast? h
  rw [List.getLast?_append, List.getLast?_append] at this
  exact absurd this (by simp [show (ascii "Args").getLast? = some 115 by decide +kernel,
    show (ascii "Result").getLast? = some 116 by decide +kernel])

theorem new_ne (a : Bytes) : a ≠ ascii "New" ++ a := fun h => by
  have := congrArg List.length h
  rw [List.length_append, show (ascii "New").length = 3 by decide +kernel] at this
  omega

/-- When the structs of two functions differ. -/
theorem fnNames_disjoint (f g : Bytes) (hf : f ≠ []) (hg : g ≠ []) :
    (∀ x ∈ fnNames f, ∀ y ∈ fnNames g, x ≠ y) ↔
      publicize f ≠ publicize g ∧ ascii "New" ++ publicize f ≠ publicize g ∧
        publicize f ≠ ascii "New" ++ publicize g := by
  rw [fnNames_eq f hf, fnNames_eq g hg]
  constructor
  · intro h
    refine ⟨fun e => ?_, fun e => ?_, fun e => ?_⟩
    · exact h _ (.head _) _ (.head _) (by rw [e])
    · exact h _ (.tail _ (.head _)) _ (.head _) (by rw [← e, List.append_assoc])
    · exact h _ (.head _) _ (.tail _ (.head _)) (by rw [e, List.append_assoc])
  · rintro ⟨h1, h2, h3⟩ x hx y hy e
    have s1 := fun a b : Bytes => args_ne_result a b
    have ca : ∀ a b w : Bytes, a ++ w = b ++ w → a = b := fun a b w => List.append_cancel_right
    simp only [List.mem_cons, List.not_mem_nil, or_false] at hx hy
    rcases hx with rfl | rfl | rfl | rfl <;> rcases hy with rfl | rfl | rfl | rfl <;>
      (try simp only [← List.append_assoc] at e) <;>
      first
        | exact s1 _ _ e
        | exact s1 _ _ e.symm
        | exact h1 (ca _ _ _ e)
        | exact h2 (ca _ _ _ e)
        | exact h3 (ca _ _ _ e)
        | exact h1 (List.append_cancel_left (ca _ _ _ e))

theorem fnNames_nodup (f : Bytes) (hf : f ≠ []) : (fnNames f).Nodup := by
  have s1 := args_ne_result
  have n1 := new_ne
  rw [fnNames_eq f hf]
  simp only [List.nodup_cons, List.mem_cons, List.not_mem_nil, or_false, not_or]
  refine ⟨⟨n1 _, s1 _ _, ?_⟩, ⟨?_, ?_⟩, n1 _, id, List.nodup_nil⟩
  · rw [← List.append_assoc]; exact s1 _ _
  · rw [← List.append_assoc]; exact s1 _ _
  · rw [← List.append_assoc, ← List.append_assoc]; exact s1 _ _

theorem helperNames_eq (services : List (List Bytes)) :
    helperNames services = services.flatten.flatMap fnNames := by
  induction services with
  | nil => rfl
  | cons a r ih =>
    show a.flatMap fnNames ++ helperNames r = (a ++ r.flatten).flatMap fnNames
    rw [List.flatMap_append, ih]

/-- Exactly when all functions of the program have different public names and
none of these is another's with `New` before it. -/
theorem C175_partial (services : List (List Bytes)) (hi : ∀ fs ∈ services, ∀ f ∈ fs, Identifier f) :
    (helperNames services).Nodup ↔ (services.flatten.map publicize).Nodup ∧
      ∀ f ∈ services.flatten, ∀ g ∈ services.flatten, ascii "New" ++ publicize f ≠ publicize g := by
  have hne : ∀ f ∈ services.flatten, f ≠ [] := by
    intro f hf e
    obtain ⟨fs, h1, h2⟩ := List.mem_flatten.1 hf
    obtain ⟨_, _, h, _⟩ := hi fs h1 f h2
    rw [e] at h; cases h
  rw [helperNames_eq]
  generalize services.flatten = l at hne
  unfold List.Nodup
  rw [List.pairwise_flatMap, List.pairwise_map]
  constructor
  · rintro ⟨-, h⟩
    have h' : l.Pairwise fun f g => publicize f ≠ publicize g ∧ ascii "New" ++ publicize f ≠ publicize g ∧
        publicize f ≠ ascii "New" ++ publicize g :=
      h.imp_of_mem fun {f g} hf hg hx => (fnNames_disjoint f g (hne f hf) (hne g hg)).1 hx
    refine ⟨h'.imp And.left, fun f hf g hg => ?_⟩
    induction l with
    | nil => cases hf
    | cons a r ih =>
      rw [List.pairwise_cons] at h h'
      rcases List.mem_cons.1 hf with e | mf <;> rcases List.mem_cons.1 hg with e' | mg
      · subst e; subst e'; exact (new_ne _).symm
      · subst e; exact (h'.1 g mg).2.1
      · subst e'; exact ((h'.1 f mf).2.2).symm
      · exact ih (fun f hf => hne f (.tail _ hf)) h.2 h'.2 mf mg
  · rintro ⟨h1, h2⟩
    refine ⟨fun f hf => fnNames_nodup f (hne f hf), ?_⟩
    refine h1.imp_of_mem fun {f g} hf hg hx => (fnNames_disjoint f g (hne f hf) (hne g hg)).2
      ⟨hx, h2 f hf g hg, (h2 g hg f hf).symm⟩

example : (helperNames [[ascii "get", ascii "put"], [ascii "list"]]).Nodup :=
  (C175_partial _ (by decide +kernel)).2 (by decide +kernel)

/-! ## C176: the processor enters the handlers that it declares -/

/-- C176: the types that the constructor of a processor enters into its map are
declared. -/
def C176_statement : Prop :=
  ∀ service f : Bytes, Identifier service → Identifier f → enteredName service f = handlerName service f

theorem C176_violated : ¬ C176_statement := fun h =>
  absurd (h (ascii "user__store") (ascii "ping") (by decide +kernel) (by decide +kernel)) (by decide +kernel)

/-- Somewhere two underscores are followed by a letter. -/
def Doubled : Bytes → Bool
  | c :: d :: e :: r => (c = 95 && d = 95 && isAlpha e) || Doubled (d :: e :: r)
  | _ => false

theorem camel_length : ∀ r : Bytes, (camel r).length ≤ r.length
  | [] => Nat.le_refl _
  | [_] => Nat.le_refl _
  | c :: d :: r => by
    rw [camel]
    split
    · have := camel_length r
      simp only [List.length_cons]; omega
    · have := camel_length (d :: r)
      simp only [List.length_cons] at this ⊢; omega

theorem alpha_ne : isAlpha 95 = false := by decide +kernel
theorem alpha_upper : ∀ d : Byte, isAlpha d → isAlpha (upper d) := by decide +kernel

/-- What the loop leaves alone the second time. -/
theorem camel_idem : ∀ r : Bytes, camel (camel r) = camel r ↔ Doubled r = false
  | [] => by simp [camel, Doubled]
  | [_] => by simp [camel, Doubled]
  | [c, d] => by
    have : Doubled [c, d] = false := rfl
    rw [this]
    refine ⟨fun _ => rfl, fun _ => ?_⟩
    rw [camel]
    split
    · rfl
    · rename_i h
      show camel [c, d] = [c, d]
      rw [camel, if_neg h]; rfl
  | c :: d :: e :: r => by
    rw [Doubled, Bool.or_eq_false_iff]
    by_cases h : c = 95 ∧ isAlpha d
    · obtain ⟨rfl, hd⟩ := h
      have hd95 : d ≠ 95 := by rintro rfl; exact absurd hd (by decide +kernel)
      have h1 : (decide ((95 : Byte) = 95) && decide (d = 95) && isAlpha e) = false := by rw [decide_eq_false hd95, Bool.and_false, Bool.false_and]
      have h2 : Doubled (d :: e :: r) = Doubled (e :: r) := by
        cases r with
        | nil => rfl
        | cons x r => rw [Doubled, decide_eq_false hd95, Bool.false_and, Bool.false_and, Bool.false_or]
      rw [camel, if_pos ⟨rfl, hd⟩, h2]
      have ih := camel_idem (e :: r)
      rcases hx : camel (e :: r) with _ | ⟨x, y⟩
      · rw [hx] at ih
        exact ⟨fun _ => ⟨h1, ih.1 rfl⟩, fun _ => rfl⟩
      · rw [camel, if_neg fun z => upper_ne d hd z.1, ← hx]
        exact ⟨fun z => ⟨h1, ih.1 (List.cons.inj z).2⟩, fun z => by rw [ih.2 z.2]⟩
    · rw [camel, if_neg h]
      have ih := camel_idem (d :: e :: r)
      by_cases hc : c = 95
      · subst hc
        have hd : isAlpha d = false := by
          cases hx : isAlpha d with
          | true => exact absurd ⟨rfl, hx⟩ h
          | false => rfl
        by_cases hd95 : d = 95
        · subst hd95
          cases he : isAlpha e with
          | true =>
            have h1 : camel (95 :: e :: r) = upper e :: camel r := by rw [camel, if_pos ⟨rfl, he⟩]
            have h2 : camel (95 :: camel (95 :: e :: r)) ≠ 95 :: camel (95 :: e :: r) := by
              rw [h1]
              intro z
              rw [camel, if_pos ⟨rfl, alpha_upper e he⟩] at z
              have h3 := congrArg List.length z
              have h4 := camel_length (camel r)
              simp only [List.length_cons] at h3
              omega
            exact ⟨fun z => absurd z h2, fun z => absurd z.1 (by decide)⟩
          | false =>
            have h1 : camel (95 :: e :: r) = 95 :: camel (e :: r) := by
              rw [camel, if_neg]; rintro ⟨-, z⟩; rw [he] at z; cases z
            have h2 : camel (95 :: camel (95 :: e :: r)) = 95 :: camel (camel (95 :: e :: r)) := by
              rw [h1, camel, if_neg]; rintro ⟨-, z⟩; exact absurd z (by decide +kernel)
            rw [h2]
            exact ⟨fun z => ⟨rfl, ih.1 (List.cons.inj z).2⟩, fun z => by rw [ih.2 z.2]⟩
        · obtain ⟨s, hs⟩ := camel_head d (e :: r) hd95
          have h2 : camel (95 :: camel (d :: e :: r)) = 95 :: camel (camel (d :: e :: r)) := by
            rw [hs, camel, if_neg]; rintro ⟨-, z⟩; rw [hd] at z; cases z
          rw [h2]
          have h1 : (decide ((95 : Byte) = 95) && decide (d = 95) && isAlpha e) = false := by rw [decide_eq_false hd95, Bool.and_false, Bool.false_and]
          exact ⟨fun z => ⟨h1, ih.1 (List.cons.inj z).2⟩, fun z => by rw [ih.2 z.2]⟩
      · have h1 : (decide (c = 95) && decide (d = 95) && isAlpha e) = false := by rw [decide_eq_false hc, Bool.false_and, Bool.false_and]
        have h2 : camel (c :: camel (d :: e :: r)) = c :: camel (camel (d :: e :: r)) := by
          rcases hx : camel (d :: e :: r) with _ | ⟨x, y⟩
          · rfl
          · rw [camel, if_neg fun z => hc z.1]
        rw [h2]
        exact ⟨fun z => ⟨h1, ih.1 (List.cons.inj z).2⟩, fun z => by rw [ih.2 z.2]⟩

theorem lower_upper : ∀ c : Byte, lower (upper c) = lower c := by decide +kernel

/-- Exactly the services in whose names, from the second character on, no letter
follows two underscores. -/
theorem C176_partial (c : Byte) (r f : Bytes) :
    enteredName (c :: r) f = handlerName (c :: r) f ↔ Doubled r = false := by
  rw [← camel_idem]
  show lower (upper c) :: camel (camel r) ++ ascii "Processor" ++ publicize f =
    lower c :: camel r ++ ascii "Processor" ++ publicize f ↔ _
  rw [lower_upper, List.append_assoc, List.append_assoc]
  exact ⟨fun h => (List.cons.inj (List.append_cancel_right h)).2, fun h => by rw [h]⟩

example : enteredName (ascii "user_store") (ascii "ping") = ascii "userStoreProcessorPing" := by
  rw [show ascii "user_store" = 117 :: ascii "ser_store" by decide +kernel,
    (C176_partial _ _ _).2 (by decide +kernel)]
  decide +kernel

/-! ## C177: the fields and methods of a struct differ -/

/-- C177: if the members of a struct have different ids and their Go fields
different names, then no two fields or methods of the Go type share a name. -/
def C177_statement : Prop :=
  ∀ ms : List (I16 × Bytes × Bool), (∀ m ∈ ms, Identifier m.2.1) → (ms.map (·.1)).Nodup →
    (ms.map fun m => fieldName m.2.1).Nodup → (selectors ms).Nodup

/-- A member called like a method. -/
theorem C177_violated : ¬ C177_statement := fun h =>
  absurd (h [(1, ascii "string", false)] (by decide +kernel) (by decide +kernel) (by decide +kernel)) (by decide +kernel)

/-- A member called like the embedded type. -/
theorem C177_embedded_violated : ¬ C177_statement := fun h =>
  absurd (h [(1, ascii "t_struct", false)] (by decide +kernel) (by decide +kernel) (by decide +kernel)) (by decide +kernel)

/-- A member called like a method for another member. -/
theorem C177_isSet_violated : ¬ C177_statement := fun h =>
  absurd (h [(1, ascii "name", true), (2, ascii "is_set_name", false)] (by decide +kernel) (by decide +kernel)
    (by decide +kernel)) (by decide +kernel)

/-- Reserved words give their fields another name, but not the methods. -/
theorem C177_reserved_violated : ¬ C177_statement := fun h =>
  absurd (h [(1, ascii "goTo", false), (2, ascii "go_to", false)] (by decide +kernel) (by decide +kernel)
    (by decide +kernel)) (by decide +kernel)

theorem idText_inj {i j : I16} (h : idText i = idText j) : i = j := by
  have b : ∀ k : I16, k.toInt.natAbs < 10 ^ 19 := fun k => by
    have := BitVec.toInt_lt (x := k); have := BitVec.le_toInt k; omega
  unfold idText at h
  rw [JsonW.formatInt_eq _ (b i), JsonW.formatInt_eq _ (b j)] at h
  have := congrArg decimalValue h
  rw [JsonR.decimalValue_decimal, JsonR.decimalValue_decimal] at this
  exact BitVec.eq_of_toInt_eq (Option.some.inj this)

theorem idText_head (i : I16) : ∃ c r, idText i = c :: r ∧ isUpper c = false := by
  have b : i.toInt.natAbs < 10 ^ 19 := by
    have := BitVec.toInt_lt (x := i); have := BitVec.le_toInt i; omega
  unfold idText
  rw [JsonW.formatInt_eq _ b]
  obtain ⟨c, r, hc⟩ := List.exists_cons_of_ne_nil (JsonW.digits_ne_nil i.toInt.natAbs)
  have hd : JsonSpec.IsDigit c := JsonW.digits_isDigit i.toInt.natAbs c (by simp [hc])
  unfold JsonSpec.decimal
  split
  · exact ⟨45, _, rfl, by decide +kernel⟩
  · refine ⟨c, r, hc, ?_⟩
    unfold isUpper
    rw [Bool.and_eq_false_iff]
    exact .inl (decide_eq_false (by have := hd.2; omega))

theorem idText_ne (i : I16) (c : Byte) (r : Bytes) (h : isAlpha c) : idText i ≠ publicize (c :: r) := by
  obtain ⟨d, s, hd, hu⟩ := idText_head i
  rw [hd]
  intro e
  rw [(List.cons.inj e).1, upper_isUpper c h] at hu
  cases hu

theorem mem_memberMethods (m : I16 × Bytes × Bool) (x : Bytes) : x ∈ memberMethods m ↔
    x = ascii "ReadField" ++ idText m.1 ∨ x = ascii "ReadField" ++ publicize m.2.1 ∨
    x = ascii "WriteField" ++ idText m.1 ∨ x = ascii "WriteField" ++ publicize m.2.1 ∨
    (m.2.2 = true ∧ x = ascii "IsSet" ++ fieldName m.2.1) := by
  unfold memberMethods
  cases m.2.2 <;> simp

theorem rf_wf (a b : Bytes) : ascii "ReadField" ++ a ≠ ascii "WriteField" ++ b := fun h =>
  absurd (List.cons.inj h).1 (by decide +kernel)
theorem rf_is (a b : Bytes) : ascii "ReadField" ++ a ≠ ascii "IsSet" ++ b := fun h =>
  absurd (List.cons.inj h).1 (by decide +kernel)
theorem wf_is (a b : Bytes) : ascii "WriteField" ++ a ≠ ascii "IsSet" ++ b := fun h =>
  absurd (List.cons.inj h).1 (by decide +kernel)

theorem memberMethods_disjoint (m n : I16 × Bytes × Bool) (hm : ∃ c r, m.2.1 = c :: r ∧ isAlpha c)
    (hn : ∃ c r, n.2.1 = c :: r ∧ isAlpha c) (h1 : m.1 ≠ n.1) (h2 : publicize m.2.1 ≠ publicize n.2.1)
    (h3 : fieldName m.2.1 ≠ fieldName n.2.1) : ∀ x ∈ memberMethods m, ∀ y ∈ memberMethods n, x ≠ y := by
  have e1 : idText m.1 ≠ idText n.1 := fun e => h1 (idText_inj e)
  have e2 : idText m.1 ≠ publicize n.2.1 := by obtain ⟨c, r, e, h⟩ := hn; rw [e]; exact idText_ne _ c r h
  have e3 : idText n.1 ≠ publicize m.2.1 := by obtain ⟨c, r, e, h⟩ := hm; rw [e]; exact idText_ne _ c r h
  intro x hx y hy e
  rw [mem_memberMethods] at hx hy
  have r1 := rf_wf
  have r2 := rf_is
  have r3 := wf_is
  generalize ascii "ReadField" = R at hx hy r1 r2
  generalize ascii "WriteField" = W at hx hy r1 r3
  generalize ascii "IsSet" = I at hx hy r2 r3
  rcases hx with rfl | rfl | rfl | rfl | ⟨-, rfl⟩ <;> rcases hy with rfl | rfl | rfl | rfl | ⟨-, rfl⟩ <;>
    first
      | exact r1 _ _ e | exact r1 _ _ e.symm | exact r2 _ _ e | exact r2 _ _ e.symm
      | exact r3 _ _ e | exact r3 _ _ e.symm
      | exact e1 (List.append_cancel_left e) | exact e2 (List.append_cancel_left e)
      | exact e3 (List.append_cancel_left e).symm | exact h2 (List.append_cancel_left e)
      | exact h3 (List.append_cancel_left e)

theorem memberMethods_nodup (m : I16 × Bytes × Bool) (hm : ∃ c r, m.2.1 = c :: r ∧ isAlpha c) :
    (memberMethods m).Nodup := by
  have e2 : idText m.1 ≠ publicize m.2.1 := by obtain ⟨c, r, e, h⟩ := hm; rw [e]; exact idText_ne _ c r h
  have e3 : ∀ w : Bytes, w ++ idText m.1 ≠ w ++ publicize m.2.1 := fun w e => e2 (List.append_cancel_left e)
  unfold memberMethods
  cases m.2.2 with
  | false =>
    simp only [Bool.false_eq_true, if_false, List.append_nil, List.nodup_cons, List.mem_cons, List.not_mem_nil,
      or_false, not_or]
    exact ⟨⟨e3 _, rf_wf _ _, rf_wf _ _⟩, ⟨rf_wf _ _, rf_wf _ _⟩, e3 _, id, List.nodup_nil⟩
  | true =>
    simp only [if_true, List.cons_append, List.nil_append, List.nodup_cons, List.mem_cons, List.not_mem_nil,
      or_false, not_or]
    exact ⟨⟨e3 _, rf_wf _ _, rf_wf _ _, rf_is _ _⟩, ⟨rf_wf _ _, rf_wf _ _, rf_is _ _⟩, ⟨e3 _, wf_is _ _⟩,
      wf_is _ _, id, List.nodup_nil⟩

/-- The beginnings of the methods for members. -/
def prefixes : List Bytes := [ascii "ReadField", ascii "WriteField", ascii "IsSet"]

theorem memberMethods_prefix (m : I16 × Bytes × Bool) (x : Bytes) (h : x ∈ memberMethods m) :
    ∃ w ∈ prefixes, w <+: x := by
  rw [mem_memberMethods] at h
  rcases h with rfl | rfl | rfl | rfl | ⟨-, rfl⟩
  · exact ⟨_, .head _, List.prefix_append _ _⟩
  · exact ⟨_, .head _, List.prefix_append _ _⟩
  · exact ⟨_, .tail _ (.head _), List.prefix_append _ _⟩
  · exact ⟨_, .tail _ (.head _), List.prefix_append _ _⟩
  · exact ⟨_, .tail _ (.tail _ (.head _)), List.prefix_append _ _⟩

/-- Holds for members whose names begin with a letter, whose public names differ
as well, and whose fields are not called like the embedded type or a method of all
structs, nor beginning like the methods for members.  Missing: other names, as in
the violations. -/
theorem C177_partial (ms : List (I16 × Bytes × Bool)) (ha : ∀ m ∈ ms, ∃ c r, m.2.1 = c :: r ∧ isAlpha c)
    (h1 : (ms.map (·.1)).Nodup) (h2 : (ms.map fun m => publicize m.2.1).Nodup)
    (h3 : (ms.map fun m => fieldName m.2.1).Nodup)
    (h4 : ∀ m ∈ ms, fieldName m.2.1 ∉ ascii "TStruct" :: fixedMethods)
    (h5 : ∀ m ∈ ms, ∀ w ∈ prefixes, ¬ w <+: fieldName m.2.1) : (selectors ms).Nodup := by
  have hm : (ms.flatMap memberMethods).Nodup := by
    unfold List.Nodup at h1 h2 h3 ⊢
    rw [List.pairwise_map] at h1 h2 h3
    rw [List.pairwise_flatMap]
    refine ⟨fun m h => memberMethods_nodup m (ha m h), ?_⟩
    refine List.Pairwise.imp_of_mem ?_ ((h1.and h2).and h3)
    intro m n hm hn h
    exact memberMethods_disjoint m n (ha m hm) (ha n hn) h.1.1 h.1.2 h.2
  have fx : ∀ x ∈ ascii "TStruct" :: fixedMethods, ∀ w ∈ prefixes, ¬ w <+: x := by decide +kernel
  have pm : ∀ x ∈ ms.flatMap memberMethods, ∃ w ∈ prefixes, w <+: x := fun x hx => by
    obtain ⟨m, _, h⟩ := List.mem_flatMap.1 hx
    exact memberMethods_prefix m x h
  unfold selectors
  rw [List.cons_append, List.cons_append, List.nodup_cons, List.nodup_append, List.nodup_append]
  refine ⟨?_, ⟨h3, by decide +kernel, ?_⟩, hm, ?_⟩
  · simp only [List.mem_append, not_or]
    refine ⟨⟨fun x => ?_, by decide +kernel⟩, fun x => ?_⟩
    · obtain ⟨m, hm, e⟩ := List.mem_map.1 x
      exact h4 m hm (e ▸ .head _)
    · obtain ⟨w, hw, hx⟩ := pm _ x
      exact fx _ (.head _) w hw hx
  · intro a hx b hy e
    obtain ⟨m, hm, e'⟩ := List.mem_map.1 hx
    exact h4 m hm (by rw [e', e]; exact .tail _ hy)
  · intro a hx b hy e
    obtain ⟨w, hw, hp⟩ := pm b hy
    subst e
    rcases List.mem_append.1 hx with hx | hx
    · obtain ⟨m, hm, e'⟩ := List.mem_map.1 hx
      exact h5 m hm w hw (e' ▸ hp)
    · exact fx a (.tail _ hx) w hw hp

example : (selectors [(1, ascii "name", true), (2, ascii "size", false)]).Nodup :=
  C177_partial _ (by intro m h; simp only [List.mem_cons, List.not_mem_nil, or_false] at h
                     rcases h with rfl | rfl
                     · exact ⟨110, ascii "ame", rfl, by decide +kernel⟩
                     · exact ⟨115, ascii "ize", rfl, by decide +kernel⟩)
    (by decide +kernel) (by decide +kernel) (by decide +kernel) (by decide +kernel) (by decide +kernel)

/-- Every clash is one: a field called like a method of all structs, or like one of
a member. -/
theorem C177_clash_violated (ms : List (I16 × Bytes × Bool)) (m : I16 × Bytes × Bool) (hm : m ∈ ms)
    (h : fieldName m.2.1 ∈ ascii "TStruct" :: fixedMethods ++ ms.flatMap memberMethods) : ¬ (selectors ms).Nodup := by
  have hf : fieldName m.2.1 ∈ ms.map fun m => fieldName m.2.1 := List.mem_map_of_mem (f := fun m => fieldName m.2.1) hm
  unfold selectors
  rw [List.cons_append, List.cons_append, List.nodup_cons, List.append_assoc, List.nodup_append]
  rintro ⟨h1, -, -, h2⟩
  rw [List.cons_append] at h
  rcases List.mem_cons.1 h with e | h
  · exact h1 (List.mem_append_left _ (e ▸ hf))
  · exact h2 _ hf _ h rfl

/-- The name of an imported package is what follows the last slash, and the whole
path if there is none. -/
theorem C173_base (a b : Bytes) (h : 47#8 ∉ b) : baseName b = b ∧ baseName (a ++ 47 :: b) = b := by
  have hr : ∀ x ∈ b.reverse, (decide (x ≠ 47) : Bool) = true := fun x hx => by
    rw [decide_eq_true_eq]
    rintro rfl
    exact h (List.mem_reverse.1 hx)
  constructor
  · unfold baseName
    rw [show b.reverse.takeWhile (fun x => decide (x ≠ 47)) = b.reverse from by
      have := List.takeWhile_append_of_pos (l₂ := []) hr
      rwa [List.append_nil, List.takeWhile_nil, List.append_nil] at this, List.reverse_reverse]
  · unfold baseName
    rw [List.reverse_append, List.reverse_cons, List.append_assoc, List.takeWhile_append_of_pos hr,
      List.singleton_append,
      List.takeWhile_cons_of_neg (by simp), List.append_nil, List.reverse_reverse]

example : baseName (ascii "net/url") = ascii "url" :=
  (C173_base (ascii "net") (ascii "url") (by decide +kernel)).2

/-- A service that extends another mentions the other's package, which it imports. -/
theorem C173_parent (s : Svc) (q : Bytes × Bytes) (h : s.parent = some q) :
    q.1 ∈ imported (serviceFile s) ∧ q.1 ∈ mentioned (serviceFile s) := by
  constructor
  · rw [serviceFile_imported, h]; simp
  · rw [serviceFile, mentioned_append, mentioned_append, h]
    simp [mentioned]

example : ascii "shared" ∈ mentioned (serviceFile ⟨ascii "B", [], some (ascii "shared", ascii "A")⟩) :=
  (C173_parent ⟨ascii "B", [], some (ascii "shared", ascii "A")⟩ (ascii "shared", ascii "A") rfl).2

/-- Every package that the command line program mentions is imported. -/
theorem C174_closed (module : Bytes) (s : Svc) (x : Bytes) (h : x ∈ mentioned (remoteFile module s)) :
    ∃ p ∈ imported (remoteFile module s), baseName p = x := by
  rw [remoteFile_mentioned] at h
  rw [remoteFile_imported]
  have fixed : ∀ y ∈ [ascii "flag", ascii "url", ascii "thrift", ascii "fmt", ascii "net", ascii "os", ascii "strconv"],
      ∃ p ∈ remoteImports, baseName p = y := by decide +kernel
  rcases h with h | rfl | ⟨rfl, _⟩
  · obtain ⟨p, hp, e⟩ := fixed x (by
      simp only [List.mem_cons, List.not_mem_nil, or_false] at h ⊢
      rcases h with h | h | h | h | h | h <;> simp [h])
    exact ⟨p, List.mem_append_left _ hp, e⟩
  · exact ⟨_, List.mem_append_right _ (List.mem_singleton_self _), rfl⟩
  · obtain ⟨p, hp, e⟩ := fixed (ascii "strconv") (by simp)
    exact ⟨p, List.mem_append_left _ hp, e⟩

example : ∃ p ∈ imported (remoteFile (ascii "a.b") ⟨ascii "S", [], none⟩), baseName p = ascii "url" :=
  C174_closed _ _ _ (by decide +kernel)

/-- The path of a module has slashes where the module has dots, and is the same
elsewhere. -/
theorem C174_slashed (m : Bytes) (i : Nat) :
    (slashed m)[i]? = if m[i]? = some 46 then some 47 else m[i]? := by
  unfold slashed
  rw [List.getElem?_map]
  cases h : m[i]? with
  | none => simp
  | some c =>
    by_cases hc : c = 46
    · subst hc; simp
    · rw [Option.map_some, if_neg hc, if_neg (fun e => hc (Option.some.inj e))]

/-- A member called like one of these methods clashes with it. -/
theorem C177_methods (n : Bytes) (hn : n ∈ [ascii "read", ascii "write", ascii "compare_to", ascii "string",
      ascii "t_struct_name", ascii "thrift_name", ascii "attribute_by_field_id", ascii "t_struct_fields"])
    (ms : List (I16 × Bytes × Bool)) (i : I16) (b : Bool) (hm : (i, n, b) ∈ ms) : ¬ (selectors ms).Nodup := by
  refine C177_clash_violated ms (i, n, b) hm (List.mem_append_left _ ?_)
  revert hn
  have : ∀ n ∈ [ascii "read", ascii "write", ascii "compare_to", ascii "string",
      ascii "t_struct_name", ascii "thrift_name", ascii "attribute_by_field_id", ascii "t_struct_fields"],
      fieldName n ∈ ascii "TStruct" :: fixedMethods := by decide +kernel
  exact this n

example : ¬ (selectors [(1, ascii "read", false)]).Nodup := C177_methods (ascii "read") (by decide +kernel) _ 1 false (.head _)

end Thrift.Emit
