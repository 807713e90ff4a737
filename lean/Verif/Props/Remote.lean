import Verif.Model.Remote
import Verif.Props.Typedef
import Verif.Lemmas.Coerce
import Verif.Lemmas.KernelRfl
/-!
# C182 … C187: the command line program of a service
-/

namespace Thrift.Emit

/-! ## C182: the program connects to the address it is given -/

/-- The address asked for: the URL if there is one, that of the flags for HTTP, or the
host (which may come with a port, as the description of the flag says) and port. -/
def asked (E : Outside) (f : Flags) : Option Dest :=
  if f.url ≠ [] then
    (E.parseUrl f.url).map fun u =>
      if u.scheme = [] ∨ u.scheme = ascii "http" then .http f.url else .tcp u.host f.framed
  else if f.http then
    (E.parseUrl (ascii "http://" ++ f.host ++ ascii ":" ++ ascii (toString f.port))).map fun _ =>
      .http (ascii "http://" ++ f.host ++ ascii ":" ++ ascii (toString f.port))
  else if 58#8 ∈ f.host then some (.tcp f.host f.framed)
  else some (.tcp (f.host ++ ascii ":" ++ ascii (toString f.port)) f.framed)

/-- C182: a transport is made for the address asked for. -/
def C182_statement : Prop := ∀ E f d, dest E f = some d → asked E f = some d

/-- Something outside, for examples. -/
def someOutside : Outside :=
  ⟨fun _ => some ⟨ascii "http", ascii "example.org:8080"⟩, fun _ => true, fun _ => true, fun _ => some 0,
    fun _ _ => some .nil⟩

/-- The URL is lost. -/
theorem C182_violated : ¬ C182_statement := fun h =>
  absurd (h someOutside { url := ascii "http://example.org:8080/", args := [ascii "ping"] } (.http []) rfl)
    (by decide +kernel)

/-- A port with the host gets a second one behind it. -/
theorem C182_port_violated : ¬ C182_statement := fun h =>
  absurd (h someOutside { host := ascii "example.org:8080", args := [ascii "ping"] }
    (.tcp (ascii "example.org:8080:9090") false) (by decide +kernel)) (by decide +kernel)

theorem hostPort_eq (h : Bytes) (p : Int) : hostPort h p = h ++ ascii ":" ++ ascii (toString p) := rfl

theorem hostPort_ne (h : Bytes) (p : Int) : hostPort h p ≠ h := by
  intro e
  have := congrArg List.length e
  rw [hostPort_eq, List.append_assoc, List.length_append, List.length_append] at this
  have h1 : (ascii ":").length = 1 := rfl
  omega

/-- Exactly without URL and HTTP, for a host without port. -/
theorem C182_partial (E : Outside) (f : Flags) (d : Dest) (h : dest E f = some d) :
    asked E f = some d ↔ f.url = [] ∧ f.http = false ∧ 58#8 ∉ f.host := by
  unfold dest at h
  unfold asked
  by_cases hu : f.url = []
  · rw [if_neg (by simp [hu])] at h ⊢
    cases hh : f.http with
    | true =>
      rw [hh, if_pos rfl] at h
      rw [if_pos rfl]
      cases hp : E.parseUrl (ascii "http://" ++ hostPort f.host f.port) with
      | none => rw [hp] at h; cases h
      | some u =>
        rw [hp] at h
        rw [hostPort_eq, ← List.append_assoc, ← List.append_assoc] at hp
        rw [hp, ← Option.some.inj h]
        simp only [Option.map_some, Option.some.injEq, Dest.http.injEq, Bool.true_eq_false, false_and, and_false,
          iff_false]
        rw [List.append_assoc, List.append_assoc]
        exact fun e => absurd (congrArg List.length e) (by simp [ascii])
    | false =>
      rw [hh, if_neg (by simp)] at h
      rw [if_neg (by simp), ← Option.some.inj h]
      by_cases hc : 58#8 ∈ f.host
      · rw [if_pos hc]
        simp only [Option.some.injEq, Dest.tcp.injEq, and_true, hc, not_true, and_false, iff_false]
        exact fun e => hostPort_ne _ _ e.symm
      · rw [if_neg hc]
        simp [hu, hc, hostPort]
  · rw [if_pos hu] at h ⊢
    cases hp : E.parseUrl f.url with
    | none => rw [hp] at h; cases h
    | some u =>
      rw [hp] at h
      simp only [Option.map_some, Option.some.injEq, hu, false_and, iff_false]
      dsimp only at h
      split at h
      · rw [if_pos ‹_›, ← Option.some.inj h]
        exact fun e => hu (Dest.http.inj e)
      · rw [if_neg ‹_›, ← Option.some.inj h]
        exact fun e => hostPort_ne _ _ (Dest.tcp.inj e).1.symm

/-- By HTTP it always is the empty URL. -/
theorem C182_http (E : Outside) (f : Flags) (u : Bytes) (h : dest E f = some (.http u)) : u = [] := by
  unfold dest at h
  split at h
  · split at h
    · cases h
    · split at h
      · exact (Dest.http.inj (Option.some.inj h)).symm
      · cases h
  · split at h
    · split at h
      · cases h
      · exact (Dest.http.inj (Option.some.inj h)).symm
    · cases h

example : dest someOutside { url := ascii "x", args := [] } = some (.http []) := rfl
example : dest someOutside { host := ascii "example.org", args := [] } =
    some (.tcp (ascii "example.org:9090") false) := by decide +kernel

/-! ## C183: the arguments of a call have the right types -/

/-- C183: Go accepts the type of every argument that the program passes. -/
def C183_statement : Prop := ∀ t : TTy, argConstructor t = true ∧ ∀ c ∈ argChecks t, c.ok

/-- Numbers of 16 bits are passed as bytes. -/
theorem C183_violated : ¬ C183_statement := fun h =>
  absurd ((h .i16).2 _ List.mem_cons_self) (by decide +kernel)

/-- Binary arguments are passed as strings. -/
theorem C183_binary_violated : ¬ C183_statement := fun h =>
  absurd ((h .binary).2 _ List.mem_cons_self) (by decide +kernel)

/-- Typedefs of structs have no constructor. -/
theorem C183_struct_violated : ¬ C183_statement := fun h =>
  absurd (h (.typedef (ascii "Owner") (.struct (ascii "Person")))).1 (by decide +kernel)

theorem not_typedef_behind (t : TTy) : t.behind.isTypedef = false := by
  induction t <;> first | rfl | assumption

/-- Exactly the types that are not 16 bit numbers or binary, behind no typedef, and not
typedefs of structs. -/
theorem C183_partial (t : TTy) :
    (argConstructor t = true ∧ ∀ c ∈ argChecks t, c.ok) ↔
      t ≠ .i16 ∧ t ≠ .binary ∧ ¬ (t.isTypedef = true ∧ t.behind.isStruct = true) := by
  cases t with
  | typedef n t =>
    have hu := goType_underlying (.typedef n t)
    have hb : (TTy.typedef n t).behind = t.behind := rfl
    have hn := not_typedef_behind t
    rw [hb] at hu ⊢
    have hc : argChecks (.typedef n t) =
        [.convert (argValueTy (.typedef n t)) (goType (.typedef n t)),
          .assign (goType (.typedef n t)) (goType (.typedef n t))] := rfl
    have key : t.behind.isStruct = false →
        (argValueTy (.typedef n t)).convertible (goType (.typedef n t)) = true := by
      intro hs
      unfold argValueTy GoTy.convertible
      rw [hb, hu]
      cases hx : t.behind <;> rw [hx] at hs hu hn <;> first | cases hs | cases hn | skip
      all_goals dsimp only
      all_goals first | (rw [hu]; simp; done) | (simp [goType, GoTy.underlying, GoTy.numeric]; done)
    have hk : argConstructor (.typedef n t) = !t.behind.isStruct := by
      show (match t.behind with | .struct _ => false | _ => true) = _
      cases t.behind <;> rfl
    rw [hc, hk]
    cases hs : t.behind.isStruct with
    | true => simp [TTy.isTypedef]
    | false =>
      simp only [Bool.not_false, true_and, List.mem_cons, List.not_mem_nil, or_false, forall_eq_or_imp, forall_eq,
        Check.ok, key hs, assignable_self]
      simp
  | i16 => simp only [ne_eq, not_true, false_and, iff_false]; exact fun h => absurd (h.2 _ List.mem_cons_self) (by decide +kernel)
  | binary => simp only [ne_eq, not_true, false_and, and_false, iff_false]; exact fun h => absurd (h.2 _ List.mem_cons_self) (by decide +kernel)
  | _ => simp [argConstructor, argChecks, TTy.isTypedef, Check.ok, argValueTy, TTy.behind, goType, assignable_self]

example : argConstructor (.typedef (ascii "Short") .i16) = true ∧
    ∀ c ∈ argChecks (.typedef (ascii "Short") .i16), c.ok :=
  (C183_partial _).2 ⟨by simp, by simp, by decide +kernel⟩

theorem eq_of_pairwise_ne {α β : Type} {f : α → β} : ∀ {l : List α}, l.Pairwise (fun a b => f a ≠ f b) → ∀ {a b : α},
    a ∈ l → b ∈ l → f a = f b → a = b
  | [], _, _, _, h, _, _ => nomatch h
  | x :: l, hp, a, b, ha, hb, e => by
    rw [List.pairwise_cons] at hp
    rcases List.mem_cons.1 ha with ha' | ha' <;> rcases List.mem_cons.1 hb with hb' | hb'
    · rw [ha', hb']
    · rw [ha'] at e; exact absurd e (hp.1 _ hb')
    · rw [hb'] at e; exact absurd e.symm (hp.1 _ ha')
    · exact eq_of_pairwise_ne hp.2 ha' hb' e

/-! ## C184: containers are read as what they are -/

/-- C184: what was read for a container argument is what is passed. -/
def C184_statement : Prop :=
  ∀ (args : List ArgDef) (i : Nat) (v : Dyn), (args.map (·.id)).Nodup →
    (args.map fun a => fieldName a.name).Nodup → i < args.length → containerArg args i v = some v

/-- The id is not the position. -/
theorem C184_violated : ¬ C184_statement := fun h =>
  absurd (congrArg Option.isSome (h [⟨2, ascii "names", .list .string⟩] 0 .nil (by decide +kernel) (by decide +kernel)
    (by decide +kernel))) (by decide +kernel)

/-- Exactly when the id is the position and the name is no reserved word. -/
theorem C184_partial (args : List ArgDef) (i : Nat) (a : ArgDef) (v : Dyn) (hv : v ≠ .nil)
    (hi : (args.map (·.id)).Nodup) (hn : (args.map fun a => fieldName a.name).Nodup) (ha : args[i]? = some a) :
    (containerArg args i v = some v ↔
      ∃ b ∈ args, b.id = i + 1 ∧ fieldName b.name = publicize a.name) ∧
    (goName a.name = a.name → (containerArg args i v = some v ↔ a.id = i + 1)) := by
  have hmem : a ∈ args := List.mem_of_getElem? ha
  have first : containerArg args i v = some v ↔ ∃ b ∈ args, b.id = i + 1 ∧ fieldName b.name = publicize a.name := by
    unfold containerArg
    rw [ha]
    cases hf : args.find? fun b => b.id = (i : Int) + 1 with
    | none =>
      simp only [reduceCtorEq, false_iff]
      rintro ⟨b, hb, he, _⟩
      exact absurd (List.find?_eq_none.1 hf b hb) (by simp [he])
    | some b =>
      have hb : b ∈ args := List.mem_of_find?_eq_some hf
      have he : b.id = i + 1 := by simpa using List.find?_some hf
      have uniq : ∀ c ∈ args, c.id = i + 1 → c = b := by
        intro c hc h
        rw [List.Nodup, List.pairwise_map] at hi
        exact eq_of_pairwise_ne hi hc hb (by rw [h, he])
      dsimp only
      split
      · rename_i hm
        constructor
        · intro h
          split at h
          · exact ⟨b, hb, he, ‹_›⟩
          · exact absurd (Option.some.inj h).symm hv
        · rintro ⟨c, hc, h1, h2⟩
          rw [← uniq c hc h1, if_pos h2]
      · rename_i hm
        simp only [reduceCtorEq, false_iff]
        rintro ⟨c, hc, h1, h2⟩
        exact hm (List.mem_map.2 ⟨c, hc, h2⟩)
  refine ⟨first, fun hg => first.trans ?_⟩
  constructor
  · rintro ⟨b, hb, h1, h2⟩
    have : b = a := by
      rw [List.Nodup, List.pairwise_map] at hn
      exact eq_of_pairwise_ne hn hb hmem (by rw [h2, fieldName, hg])
    rw [← this, h1]
  · exact fun h => ⟨a, hmem, h, by rw [fieldName, hg]⟩

example : containerArg [⟨1, ascii "names", .list .string⟩] 0 (.list 1 TT.STRING []) = some (.list 1 TT.STRING []) :=
  ((C184_partial _ 0 _ _ (by simp) (by decide +kernel) (by decide +kernel) rfl).2 (by decide +kernel)).2 rfl

/-! ## C185: numbers are passed as they are typed -/

/-- The numbers of a type; enums are as wide as Go's `int`. -/
def Holds (t : TTy) (n : Int) : Prop :=
  match t.behind with
  | .byte => 0 ≤ n ∧ n < 2 ^ 8
  | .i16 => -2 ^ 15 ≤ n ∧ n < 2 ^ 15
  | .i32 => -2 ^ 31 ≤ n ∧ n < 2 ^ 31
  | _ => -2 ^ 63 ≤ n ∧ n < 2 ^ 63

/-- C185: the number typed is passed if the type can hold it, and nothing is passed
otherwise. -/
def C185_statement : Prop :=
  ∀ (t : TTy) (s : Bytes) (n : Int), argNumber t s = some n ↔ decimalValue s = some n ∧ Holds t n

/-- 300 is passed as 44. -/
theorem C185_violated : ¬ C185_statement := fun h =>
  absurd ((h .byte (ascii "300") 44).1 (by decide +kernel)).1 (by decide +kernel)

/-- What comes of a number: for bytes and 16 bit numbers its last 8 bits. -/
def passed (t : TTy) (n : Int) : Int :=
  match t.behind with
  | .byte | .i16 => n % 256
  | .i32 => (n + 2 ^ 31) % 2 ^ 32 - 2 ^ 31
  | _ => n

theorem argNumber_eq (t : TTy) (s : Bytes) : argNumber t s =
    match decimalValue s with
    | some n => if -2 ^ 63 ≤ n ∧ n < 2 ^ 63 then some (passed t n) else none
    | none => none := by
  have h := parseInt_eq s
  unfold argNumber
  cases hd : decimalValue s with
  | none =>
    rw [hd] at h
    obtain ⟨v, _, h⟩ := h
    rw [h]; rfl
  | some n =>
    rw [hd] at h
    dsimp only at h ⊢
    by_cases hr : -2 ^ 63 ≤ n ∧ n < 2 ^ 63
    · rw [if_pos hr] at h ⊢
      rw [h]
      unfold passed
      have h64 : (BitVec.ofInt 64 n).toInt = n := by
        rw [BitVec.toInt_ofInt, Int.bmod_eq_of_le (by omega) (by omega)]
      have h8 : (((BitVec.ofInt 64 n).setWidth 8).toNat : Int) = n % 256 := by
        rw [BitVec.toNat_setWidth, BitVec.toNat_ofInt]
        omega
      have h32 : ((BitVec.ofInt 64 n).setWidth 32).toInt = (n + 2 ^ 31) % 2 ^ 32 - 2 ^ 31 := by
        rw [BitVec.toInt_setWidth, BitVec.toNat_ofInt, Int.bmod_def]
        split <;> omega
      cases t.behind <;> simp only [Bool.false_eq_true, if_false, h8, h32, h64]
    · rw [if_neg hr] at h ⊢
      obtain ⟨v, _, h⟩ := h
      rw [h]; rfl

/-- What is passed, exactly: nothing for texts that are no numbers of 64 bits, and
else the number itself if and only if it is in the range of the Go type that the
program converts to: for 16 bit numbers that of a byte. -/
theorem C185_partial (t : TTy) (s : Bytes) :
    (argNumber t s = none ↔ ∀ n, decimalValue s = some n → ¬ (-2 ^ 63 ≤ n ∧ n < 2 ^ 63)) ∧
    (∀ n, decimalValue s = some n → -2 ^ 63 ≤ n → n < 2 ^ 63 →
      (argNumber t s = some n ↔ Holds (if t.behind = .i16 then .byte else t) n)) := by
  rw [argNumber_eq]
  cases hd : decimalValue s with
  | none => simp
  | some n =>
    dsimp only
    constructor
    · by_cases hr : -2 ^ 63 ≤ n ∧ n < 2 ^ 63
      · rw [if_pos hr]
        simp only [reduceCtorEq, Option.some.injEq, false_iff]
        exact fun h => h n rfl hr
      · rw [if_neg hr]
        simp only [Option.some.injEq, true_iff]
        rintro m rfl
        exact hr
    · intro m hm h1 h2
      cases hm
      rw [if_pos ⟨h1, h2⟩]
      unfold passed Holds
      by_cases hi : t.behind = .i16
      · rw [if_pos hi, hi]
        simp only [TTy.behind, Option.some.injEq]
        omega
      · rw [if_neg hi]
        cases hb : t.behind <;> first | exact absurd hb hi | skip
        all_goals simp only [Option.some.injEq]
        all_goals first | omega | exact ⟨fun _ => ⟨h1, h2⟩, fun _ => trivial⟩

example : argNumber .i32 (ascii "-5") = some (-5) :=
  ((C185_partial .i32 (ascii "-5")).2 (-5) (by decide +kernel) (by decide) (by decide)).2
    ⟨by decide, by decide⟩

/-- Booleans are what is typed only as `true`. -/
theorem C185_bool (E : Outside) (t : TTy) (h : t.behind = .bool) (s : Bytes) :
    argValue E t s = some (.bool true) ↔ s = ascii "true" := by
  unfold argValue
  rw [h]
  simp

example : argValue someOutside .bool (ascii "true") = some (.bool true) :=
  (C185_bool _ _ rfl _).2 rfl

/-! ## C186: the exit status tells whether a function was called -/

/-- C186: the program ends with status 0 if and only if it was asked for its usage or
has called a function. -/
def C186_statement : Prop :=
  ∀ E cs f, (runRemote E cs f).exit = 0 ↔ f.help = true ∨ (runRemote E cs f).called.isSome

/-- A function that there is not: status 0. -/
theorem C186_violated : ¬ C186_statement := fun h =>
  absurd ((h someOutside [] { args := [ascii "ping"] }).1 (by decide +kernel)) (by decide +kernel)

/-- What stands in the way of a call. -/
structure Callable (E : Outside) (cs : List Command) (f : Flags) (d : Dest) (c : Command) (vs : List Dyn) : Prop where
  help : f.help = false
  dest : dest E f = some d
  made : E.make d = true
  protocol : f.protocol ∈ knownProtocols
  opened : E.opens d = true
  known : ∃ args, f.args = c.name :: args ∧ cs.find? (fun x => x.name = c.name) = some c ∧
    args.length = c.args.length ∧ argValues E c.args args = some vs

/-- When a call is made, which, and when the status is 1: only when no transport can be
made or opened. -/
theorem C186_partial (E : Outside) (cs : List Command) (f : Flags) :
    (∀ n vs, (runRemote E cs f).called = some (n, vs) ↔ ∃ d c, c.name = n ∧ Callable E cs f d c vs) ∧
    ((runRemote E cs f).exit = 1 ↔ f.help = false ∧ f.args ≠ [] ∧ ∃ d, dest E f = some d ∧
      (E.make d = false ∨ f.protocol ∈ knownProtocols ∧ E.opens d = false)) ∧
    ((runRemote E cs f).exit = 0 ∨ (runRemote E cs f).exit = 1) := by
  unfold runRemote
  cases ha : f.args with
  | nil =>
    refine ⟨fun n vs => ?_, by simp, .inl rfl⟩
    simp only [reduceCtorEq, false_iff]
    rintro ⟨d, c, _, h⟩
    obtain ⟨args, h1, _⟩ := h.known
    rw [ha] at h1; cases h1
  | cons cmd args =>
    cases hh : f.help with
    | true =>
      refine ⟨fun n vs => ?_, by simp, .inl rfl⟩
      simp only [if_true, reduceCtorEq, false_iff]
      rintro ⟨d, c, _, h⟩
      have h1 := h.help
      rw [hh] at h1; cases h1
    | false =>
      simp only [Bool.false_eq_true, if_false]
      cases hd : dest E f with
      | none =>
        refine ⟨fun n vs => ?_, by simp, .inl rfl⟩
        simp only [reduceCtorEq, false_iff]
        rintro ⟨d, c, _, h⟩
        have := h.dest
        rw [hd] at this; cases this
      | some d =>
        have same : ∀ {d' c vs}, Callable E cs f d' c vs → d' = d := fun h => by
          have := h.dest
          rw [hd] at this
          exact (Option.some.inj this).symm
        dsimp only
        cases hm : E.make d with
        | false =>
          refine ⟨fun n vs => ?_, by simp [hm], .inr rfl⟩
          simp only [Bool.not_false, if_true, reduceCtorEq, false_iff]
          rintro ⟨d', c, _, h⟩
          have h1 := h.made
          rw [same h, hm] at h1; cases h1
        | true =>
          simp only [Bool.not_true, Bool.false_eq_true, if_false]
          by_cases hp : f.protocol ∈ knownProtocols
          · rw [if_neg (by simp [hp])]
            cases ho : E.opens d with
            | false =>
              refine ⟨fun n vs => ?_, by simp [hm, ho, hp], .inr rfl⟩
              simp only [Bool.not_false, if_true, reduceCtorEq, false_iff]
              rintro ⟨d', c, _, h⟩
              have h1 := h.opened
              rw [same h, ho] at h1; cases h1
            | true =>
              simp only [Bool.not_true, Bool.false_eq_true, if_false]
              have exit0 : (runCommand E cs d cmd args).exit = 0 := by
                unfold runCommand
                split
                · split
                  · rfl
                  · split <;> rfl
                · rfl
              refine ⟨fun n vs => ?_, by simp [exit0, hm, ho], .inl exit0⟩
              unfold runCommand
              constructor
              · intro h
                split at h
                · rename_i c hc
                  split at h
                  · cases h
                  · rename_i hl
                    split at h
                    · cases h
                    · rename_i ws hw
                      have hcn : c.name = cmd := by simpa using List.find?_some hc
                      cases h
                      refine ⟨d, c, rfl, hh, hd, hm, hp, ho, args, ?_, ?_, by omega, hw⟩
                      · rw [ha, hcn]
                      · rw [hcn]; exact hc
                · cases h
              · rintro ⟨d', c, rfl, h⟩
                obtain ⟨args', h1, h2, h3, h4⟩ := h.known
                rw [ha] at h1
                cases h1
                rw [h2]
                dsimp only
                rw [if_neg (by simp [h3]), h4]
          · rw [if_pos hp]
            refine ⟨fun n vs => ?_, by simp [hm, hp], .inl rfl⟩
            simp only [reduceCtorEq, false_iff]
            rintro ⟨d', c, _, h⟩
            exact hp h.protocol

/-- A function that there is not is looked for only when the connection stands. -/
theorem C186_connects (E : Outside) (cs : List Command) (f : Flags) (d : Dest) (cmd : Bytes) (args : List Bytes)
    (ha : f.args = cmd :: args) (hh : f.help = false) (hd : dest E f = some d) (hm : E.make d = true)
    (hp : f.protocol ∈ knownProtocols) (ho : E.opens d = true) : (runRemote E cs f).opened = some d := by
  unfold runRemote
  rw [ha, hh]
  simp only [Bool.false_eq_true, if_false, hd, hm, Bool.not_true, ho]
  rw [if_neg (by simp [hp])]
  unfold runCommand
  split
  · split
    · rfl
    · split <;> rfl
  · rfl

example : (runRemote someOutside [⟨ascii "add", [.i32, .bool]⟩]
    { args := [ascii "add", ascii "7", ascii "true"] }).called = some (ascii "add", [.int32 7, .bool true]) :=
  ((C186_partial someOutside _ _).1 _ _).2 ⟨.tcp (ascii "localhost:9090") false, ⟨ascii "add", [.i32, .bool]⟩, rfl,
    rfl, by decide +kernel, rfl, by decide +kernel, rfl, _, rfl, by simp, rfl, by kernel_rfl⟩

/-! ## C187: every function of a service can be called -/

/-- C187: with everything in order outside, every function of a service, its parents'
included, can be called with arguments that can be read. -/
def C187_statement : Prop :=
  ∀ (E : Outside) (chain : List (List Command)) (f : Flags) (d : Dest) (cs : List Command) (c : Command)
    (args : List Bytes) (vs : List Dyn),
    cs ∈ chain → c ∈ cs → ((chain.flatten).map (·.name)).Nodup → f.args = c.name :: args → f.help = false →
    dest E f = some d → E.make d = true → f.protocol ∈ knownProtocols → E.opens d = true →
    args.length = c.args.length → argValues E c.args args = some vs →
    (runRemote E (commands chain) f).called = some (c.name, vs)

theorem C187_violated : ¬ C187_statement := fun h =>
  absurd (h someOutside [[⟨ascii "ping", []⟩], [⟨ascii "zip", []⟩]] { args := [ascii "ping"] }
    (.tcp (ascii "localhost:9090") false) [⟨ascii "ping", []⟩] ⟨ascii "ping", []⟩ [] [] (by simp) (by simp)
    (by decide +kernel) rfl rfl (by decide +kernel) rfl (by decide +kernel) rfl rfl rfl)
    (fun e => absurd (congrArg Option.isSome e) (by decide +kernel))

/-- The functions of the service itself, and no others. -/
theorem C187_partial (E : Outside) (chain : List (List Command)) (f : Flags) (d : Dest) (c : Command)
    (args : List Bytes) (vs : List Dyn) (hn : ((commands chain).map (·.name)).Nodup) (ha : f.args = c.name :: args)
    (hh : f.help = false) (hd : dest E f = some d) (hm : E.make d = true) (hp : f.protocol ∈ knownProtocols)
    (ho : E.opens d = true) (hl : args.length = c.args.length) (hv : argValues E c.args args = some vs) :
    (c ∈ commands chain → (runRemote E (commands chain) f).called = some (c.name, vs)) ∧
    (c.name ∉ (commands chain).map (·.name) → (runRemote E (commands chain) f).called = none) := by
  constructor
  · intro hc
    refine ((C186_partial E _ f).1 _ _).2 ⟨d, c, rfl, hh, hd, hm, hp, ho, args, ha, ?_, hl, hv⟩
    cases hf : (commands chain).find? fun x => x.name = c.name with
    | none => exact absurd (List.find?_eq_none.1 hf c hc) (by simp)
    | some b =>
      have hb : b.name = c.name := by simpa using List.find?_some hf
      rw [List.Nodup, List.pairwise_map] at hn
      rw [eq_of_pairwise_ne hn (List.mem_of_find?_eq_some hf) hc hb]
  · intro hc
    cases hr : (runRemote E (commands chain) f).called with
    | none => rfl
    | some x =>
      obtain ⟨d', c', h1, h2⟩ := ((C186_partial E _ f).1 x.1 x.2).1 hr
      obtain ⟨args', h3, h4, _⟩ := h2.known
      rw [ha] at h3
      have h5 : c.name = c'.name := (List.cons.inj h3).1
      exact absurd (List.mem_map.2 ⟨c', List.mem_of_find?_eq_some h4, h5.symm⟩) hc

example : (runRemote someOutside (commands [[⟨ascii "ping", []⟩], [⟨ascii "zip", []⟩]]) { args := [ascii "zip"] }).called =
    some (ascii "zip", []) :=
  (C187_partial someOutside [[⟨ascii "ping", []⟩], [⟨ascii "zip", []⟩]] _ (.tcp (ascii "localhost:9090") false)
    ⟨ascii "zip", []⟩ [] [] (by decide +kernel) rfl rfl (by decide +kernel) rfl (by decide +kernel) rfl rfl rfl).1
    (by simp [commands])

/-- A socket is framed exactly when it was asked for. -/
theorem C182_framed (E : Outside) (f : Flags) (a : Bytes) (fr : Bool) (h : dest E f = some (.tcp a fr)) : fr = f.framed := by
  unfold dest at h
  split at h
  · split at h
    · cases h
    · split at h
      · cases h
      · exact (Dest.tcp.inj (Option.some.inj h)).2.symm
  · split at h
    · split at h <;> cases h
    · exact (Dest.tcp.inj (Option.some.inj h)).2.symm

example : dest someOutside { host := ascii "a", framed := true, args := [] } = some (.tcp (ascii "a:9090") true) := by
  decide +kernel

/-- Text is passed as typed, floats as `ParseFloat` reads them, structs and containers
as they are read from JSON as their declared type. -/
theorem C184_others (E : Outside) (t : TTy) (s : Bytes) :
    (t.behind = .string ∨ t.behind = .binary → argValue E t s = some (.string s)) ∧
    (t.behind = .double → argValue E t s = (E.float s).map .float64) ∧
    ((goType t).underlying.numeric = false → t.behind ≠ .bool → t.behind ≠ .string → t.behind ≠ .binary →
      argValue E t s = E.json t s) := by
  refine ⟨?_, ?_, ?_⟩
  · rintro (h | h) <;> unfold argValue <;> rw [h]
  · intro h; unfold argValue; rw [h]
  · intro h h1 h2 h3
    rw [← C174_parsed] at h
    unfold TTy.parsed at h
    unfold argValue
    have hn := not_typedef_behind t
    cases hb : t.behind <;> rw [hb] at h h1 h2 h3 hn <;> first | rfl | exact absurd rfl h1 | exact absurd rfl h2 | exact absurd rfl h3 | exact Bool.noConfusion h | exact Bool.noConfusion hn

/-- Integers are passed as numbers of the width of the declared type, enums as 64 bits. -/
theorem C185_widths (E : Outside) (t : TTy) (s : Bytes) (n : Int) (h : argNumber t s = some n) :
    (t.behind = .byte → argValue E t s = some (.byte (BitVec.ofInt 8 n))) ∧
    (t.behind = .i16 → argValue E t s = some (.int16 (BitVec.ofInt 16 n))) ∧
    (t.behind = .i32 → argValue E t s = some (.int32 (BitVec.ofInt 32 n))) ∧
    (t.behind = .i64 ∨ t.behind.isEnum → argValue E t s = some (.int64 (BitVec.ofInt 64 n))) := by
  refine ⟨?_, ?_, ?_, ?_⟩
  · intro hb; unfold argValue; rw [hb, h]; rfl
  · intro hb; unfold argValue; rw [hb, h]; rfl
  · intro hb; unfold argValue; rw [hb, h]; rfl
  · rintro (hb | hb)
    · unfold argValue; rw [hb, h]; rfl
    · unfold argValue
      cases hc : t.behind <;> rw [hc] at hb <;> first | exact Bool.noConfusion hb | (rw [h]; rfl)

example : argValue someOutside (.enum (ascii "Colour")) (ascii "7") = some (.int64 7) :=
  (C185_widths someOutside (.enum (ascii "Colour")) (ascii "7") 7 (by decide +kernel)).2.2.2 (.inr rfl)

/-- Four protocols are known by name, and no name is the binary one. -/
theorem C186_protocols (p : Bytes) : p ∈ knownProtocols ↔
    p = [] ∨ p = ascii "binary" ∨ p = ascii "compact" ∨ p = ascii "json" ∨ p = ascii "simplejson" := by
  simp only [knownProtocols, List.mem_cons, List.not_mem_nil, or_false]
  grind

/-- One value for every argument. -/
theorem C186_arity (E : Outside) : ∀ (ts : List TTy) (ss : List Bytes) (vs : List Dyn),
    argValues E ts ss = some vs → vs.length = ts.length ∧ ts.length ≤ ss.length
  | [], ss, vs, h => by cases h; exact ⟨rfl, Nat.zero_le _⟩
  | t :: ts, [], vs, h => by cases h
  | t :: ts, s :: ss, vs, h => by
    rw [argValues] at h
    split at h
    · rename_i v ws h1 h2
      cases h
      have := C186_arity E ts ss ws h2
      exact ⟨congrArg (· + 1) this.1, Nat.succ_le_succ this.2⟩
    · cases h

example : ∃ vs, argValues someOutside [.string, .bool] [ascii "a", ascii "true"] = some vs ∧ vs.length = 2 :=
  ⟨_, rfl, (C186_arity someOutside [.string, .bool] [ascii "a", ascii "true"] _ rfl).1⟩

end Thrift.Emit
