import Verif.Model.Extends
import Verif.Props.Docs
/-!
# Services that extend others, their clients and types
-/

namespace Thrift.Emit

/-! ## C203: services that extend others are accepted -/

/-- What a file of the package calls what a module declares: the name in the package clause
of the module, a dot and the declared name. -/
def qualified (module name : Bytes) : Bytes := packageName module ++ [46] ++ name

/-- C203: what is printed for a service that extends another names what the other declares,
and gives a value to a field of the client. -/
def C203_statement : Prop :=
  ∀ m p : Bytes, m ≠ [] → Identifier p → 46 ∉ p →
    parentRefs m p = (serviceNames p).map (qualified m) ∧ clientKey m p ∈ clientFields (some p)

theorem dot_split (m p : Bytes) (hp : 46 ∉ p) : uptoDot (m ++ [46] ++ p) = m ++ [46] ∧ behindDot (m ++ [46] ++ p) = p := by
  have hr : ∀ c ∈ p.reverse, decide (c ≠ 46) = true := by
    intro c hc
    simp only [decide_eq_true_eq]
    rintro rfl
    exact hp (List.mem_reverse.1 hc)
  unfold uptoDot behindDot
  rw [List.reverse_append, List.reverse_append, List.dropWhile_append_of_pos hr, List.takeWhile_append_of_pos hr]
  simp

theorem parentRef_eq (pre suf m p : Bytes) (hp : 46 ∉ p) : parentRef pre suf m p = m ++ [46] ++ pre ++ publicize p ++ suf := by
  unfold parentRef serviceText
  rw [if_pos (by simp), (dot_split m p hp).1, (dot_split m p hp).2]

/-- All mentions carry the module, dots included. -/
theorem parentRefs_eq (m p : Bytes) (hp : 46 ∉ p) : parentRefs m p = (serviceNames p).map (m ++ [46] ++ ·) := by
  simp only [parentRefs, parentInterface, parentClient, parentClientFactory, parentClientProtocol, parentProcessor, parentProcessorNew,
    parentRef_eq _ _ _ _ hp, serviceNames, List.map_cons, List.map_nil, List.append_assoc, List.append_nil]

theorem packageName_plain {m : Bytes} (h0 : m ≠ []) (h : 46 ∉ m) : packageName m = m := by
  rw [packageName, packageLoop, if_neg h0, if_neg h]

theorem packageLoop_name (d n m : Bytes) (hn : 46 ∉ n) : 46 ∉ (packageLoop d n m).2.2 := by
  fun_induction packageLoop d n m with
  | case1 => exact hn
  | case2 _ _ _ _ _ ih => exact ih
  | case3 _ _ _ h => exact h

/-- C203, exactly, for the mentions: they name what the parent's file declares if the module
has no dot. -/
theorem C203_refs_partial {m p : Bytes} (h0 : m ≠ []) (hp : 46 ∉ p) : parentRefs m p = (serviceNames p).map (qualified m) ↔ 46 ∉ m := by
  rw [parentRefs_eq m p hp]
  constructor
  · intro h hm
    have h := (List.cons.inj h).1
    have h : m = packageName m := by
      have h : m ++ [46] ++ (ascii "I" ++ publicize p) = packageName m ++ [46] ++ (ascii "I" ++ publicize p) := h
      exact List.append_cancel_right (List.append_cancel_right h)
    rw [h] at hm
    exact packageLoop_name _ _ _ (by simp) hm
  · intro h
    rw [show qualified m = (m ++ [46] ++ ·) from by unfold qualified; rw [packageName_plain h0 h]]

theorem publicize_dot {v : Bytes} (h : 46 ∉ v) : 46 ∉ publicize v := by
  have up : ∀ c : Byte, upper c = 46 → c = 46 := by decide +kernel
  have cam : ∀ r : Bytes, 46 ∈ camel r → 46 ∈ r := by
    intro r
    fun_induction camel r with
    | case1 => exact id
    | case2 => exact id
    | case3 c d r hc ih =>
      intro h
      rcases List.mem_cons.1 h with h | h
      · rw [up d h.symm]; simp
      · exact List.mem_cons_of_mem _ (List.mem_cons_of_mem _ (ih h))
    | case4 c d r hc ih =>
      intro h
      rcases List.mem_cons.1 h with h | h
      · rw [h]; exact List.mem_cons_self
      · exact List.mem_cons_of_mem _ (ih h)
  cases v with
  | nil => exact h
  | cons c r =>
    intro hm
    rcases List.mem_cons.1 hm with e | hm
    · exact h (by rw [up c e.symm]; exact List.mem_cons_self)
    · exact h (List.mem_cons_of_mem _ (cam r hm))

/-- C203 fails for every service that extends another: the constructors of its client give
a value to what is no field. -/
theorem C203_never_partial (m : Bytes) {p : Bytes} (hp : 46 ∉ p) : clientKey m p ∉ clientFields (some p) := by
  intro h
  have h : clientKey m p = publicize p ++ ascii "Client" := List.mem_singleton.1 h
  rw [clientKey, parentClient, parentRef_eq _ _ _ _ hp] at h
  have hd : (46 : Byte) ∈ publicize p ++ ascii "Client" := by rw [← h]; simp
  rcases List.mem_append.1 hd with hd | hd
  · exact publicize_dot hp hd
  · revert hd; decide

/-- C203 does not hold. -/
theorem C203_violated : ¬ C203_statement := fun h =>
  C203_never_partial (ascii "m") (p := ascii "P") (by decide) (h (ascii "m") (ascii "P") (by decide) (by decide +kernel) (by decide)).2

/-- C203 does not hold: nothing is called `a.b.IP`. -/
theorem C203_dots_violated : ¬ C203_statement := fun h =>
  (C203_refs_partial (m := ascii "a.b") (p := ascii "P") (by decide) (by decide)).1
    (h (ascii "a.b") (ascii "P") (by decide) (by decide +kernel) (by decide)).1 (by decide)

example : parentInterface (ascii "shared") (ascii "sharedService") = ascii "shared.ISharedService" ∧
    clientKey (ascii "shared") (ascii "sharedService") = ascii "shared.SharedServiceClient" := by decide +kernel
/-- The hypotheses are met. -/
example := C203_refs_partial (m := ascii "shared") (p := ascii "sharedService") (by decide) (by decide)

/-! ## C204: types are named with their packages -/

/-- What Go takes a name for in a file of the package `own`: with a dot for a name of the
package before it, without for one of the package itself. -/
def MeansType (own : Bytes) (text : Bytes) (o : Origin) : Prop :=
  match o with
  | .builtin t => text = t
  | .declared m n => if m = own then text = publicize n else text = qualified m (publicize n)

/-- C204: where a type is mentioned, Go takes the text for this type. -/
def C204_statement : Prop := ∀ (own : Bytes) (o : Origin), (∀ m n, o = .declared m n → 46 ∉ n) → MeansType own (goTypeText o) o

/-- C204, exactly: types of other files are never meant. -/
theorem C204_partial (own : Bytes) {o : Origin} (hn : ∀ m n, o = .declared m n → 46 ∉ n) :
    MeansType own (goTypeText o) o ↔ ∀ m n, o = .declared m n → m = own := by
  cases o with
  | builtin t => exact ⟨fun _ _ _ h => (nomatch h), fun _ => rfl⟩
  | declared m n =>
    show (if m = own then publicize n = publicize n else publicize n = qualified m (publicize n)) ↔ _
    constructor
    · intro h m' n' e
      cases e
      by_cases hm : m = own
      · exact hm
      · rw [if_neg hm] at h
        exact absurd (show (46 : Byte) ∈ publicize n from by rw [h]; simp [qualified]) (publicize_dot (hn m n rfl))
    · intro h
      rw [if_pos (h m n rfl)]

/-- C204 does not hold: a struct of an included file is mentioned without its package. -/
theorem C204_violated : ¬ C204_statement := fun h =>
  absurd ((C204_partial (ascii "tutorial") (o := .declared (ascii "shared") (ascii "SharedStruct")) (fun _ _ e => by cases e; decide)).1
    (h _ _ (fun _ _ e => by cases e; decide)) _ _ rfl) (by decide)

/-- The hypotheses are met. -/
example := (C204_partial (ascii "tutorial") (o := .declared (ascii "tutorial") (ascii "Work")) (fun _ _ e => by cases e; decide)).2
  (fun _ _ e => by cases e; rfl)

/-! ## C205: fields and methods of clients -/

/-- C205: if the functions of a service and of those it extends bring no two methods of one
name, the fields and methods of their clients differ, and the fields that the methods use
are found. -/
def C205_statement : Prop :=
  ∀ (root : List Bytes) (ext : List (Bytes × List Bytes)), (∀ fs ∈ root :: ext.map (·.2), (∀ f ∈ fs, Identifier f) ∧ (clientMethods fs).Nodup) →
    (∀ e ∈ ext, Identifier e.1) →
    (∀ l ∈ ext.map (fun e => (some e.1, e.2)) ++ [(none, root)], (clientFields l.1 ++ clientMethods l.2).Nodup) ∧
    ∀ n ∈ usedFields, finds (ext.map (fun e => (some e.1, e.2)) ++ [(none, root)]) n = some true

theorem mem_clientMethods {x : Bytes} {fs : List Bytes} :
    x ∈ clientMethods fs ↔ ∃ f ∈ fs, x = publicize f ∨ x = ascii "Send" ++ publicize f ∨ x = ascii "Recv" ++ publicize f := by
  simp [clientMethods]

/-- The fields of a client that extends no other are hit by no `Send…` or `Recv…`. -/
theorem fields_hit {x : Bytes} {fs : List Bytes} (hx : x ∈ clientFields none) : x ∈ clientMethods fs ↔ x ∈ fs.map publicize := by
  rw [mem_clientMethods, List.mem_map]
  constructor
  · rintro ⟨f, hf, h⟩
    rcases h with h | h | h
    · exact ⟨f, hf, h.symm⟩
    · rw [h] at hx
      have : (ascii "Send" ++ publicize f).take 4 ∈ (clientFields none).map (List.take 4) := List.mem_map_of_mem hx
      rw [show (ascii "Send" ++ publicize f).take 4 = ascii "Send" from rfl] at this
      exact absurd this (by decide)
    · rw [h] at hx
      have : (ascii "Recv" ++ publicize f).take 4 ∈ (clientFields none).map (List.take 4) := List.mem_map_of_mem hx
      rw [show (ascii "Recv" ++ publicize f).take 4 = ascii "Recv" from rfl] at this
      exact absurd this (by decide)
  · rintro ⟨f, hf, h⟩
    exact ⟨f, hf, .inl h.symm⟩

/-- C205, exactly, for a client that extends no other. -/
theorem C205_root_partial {fs : List Bytes} (h : (clientMethods fs).Nodup) :
    (clientFields none ++ clientMethods fs).Nodup ↔ ∀ f ∈ fs, publicize f ∉ clientFields none := by
  rw [List.nodup_append]
  constructor
  · rintro ⟨-, -, hd⟩ f hf hm
    exact hd _ hm _ ((fields_hit hm).2 (List.mem_map_of_mem hf)) rfl
  · intro hf
    refine ⟨by decide, h, ?_⟩
    rintro a ha b hb rfl
    obtain ⟨f, hf', e⟩ := List.mem_map.1 ((fields_hit ha).1 hb)
    exact hf f hf' (by rw [e]; exact ha)

/-- C205, exactly, for a client that extends another. -/
theorem C205_extends_partial {p : Bytes} {fs : List Bytes} (h : (clientMethods fs).Nodup) :
    (clientFields (some p) ++ clientMethods fs).Nodup ↔ publicize p ++ ascii "Client" ∉ clientMethods fs := by
  show ((publicize p ++ ascii "Client") :: clientMethods fs).Nodup ↔ _
  rw [List.nodup_cons]
  exact ⟨fun x => x.1, fun x => ⟨x, h⟩⟩

theorem used_fields : ∀ n ∈ usedFields, n ∈ clientFields none := by decide

theorem no_client {n : Bytes} (hn : n ∈ usedFields) (p : Bytes) : n ∉ clientFields (some p) := by
  intro h
  have h : n = publicize p ++ ascii "Client" := List.mem_singleton.1 h
  have : n.reverse.take 6 = (ascii "Client").reverse := by
    rw [h, List.reverse_append]
    exact List.take_left' rfl
  have key : ∀ n ∈ usedFields, n.reverse.take 6 ≠ (ascii "Client").reverse := by decide
  exact key n hn this

/-- C205, exactly, for the fields that the methods use: each is found if no function of a
service that extends another, directly or not, has its name. -/
theorem C205_used_partial {root : List Bytes} {n : Bytes} (hn : n ∈ usedFields) : ∀ ext : List (Bytes × List Bytes),
    finds (ext.map (fun e => (some e.1, e.2)) ++ [(none, root)]) n = some true ↔ ∀ e ∈ ext, n ∉ e.2.map publicize
  | [] => by
    simp [finds, used_fields n hn]
  | e :: ext => by
    have ih := C205_used_partial hn ext (root := root)
    rw [List.map_cons, List.cons_append, finds, if_neg (no_client hn e.1), List.forall_mem_cons, ← ih]
    by_cases hm : n ∈ clientMethods e.2
    · rw [if_pos hm]
      simp [(fields_hit (used_fields n hn)).1 hm]
    · rw [if_neg hm]
      exact ⟨fun h => ⟨fun x => hm ((fields_hit (used_fields n hn)).2 x), h⟩, fun h => h.2⟩

/-- C205 does not hold: a function `transport` has the name of a field. -/
theorem C205_violated : ¬ C205_statement := fun h =>
  absurd ((h [ascii "transport"] [] (by decide +kernel) (by simp)).1 _ (List.mem_singleton.2 rfl)) (by decide +kernel)

/-- C205 does not hold: it hides the field if its service extends another. -/
theorem C205_hidden_violated : ¬ C205_statement := fun h =>
  absurd ((h [] [(ascii "P", [ascii "transport"])] (by decide +kernel) (by decide +kernel)).2 (ascii "Transport") (by decide)) (by decide +kernel)

/-- C205 does not hold: nor may a function be called like the client of the parent. -/
theorem C205_client_violated : ¬ C205_statement := fun h =>
  absurd ((h [] [(ascii "P", [ascii "pClient"])] (by decide +kernel) (by decide +kernel)).1 _ (List.mem_cons_self)) (by decide +kernel)

/-- The hypotheses are met. -/
example := (C205_root_partial (fs := [ascii "ping"]) (by decide +kernel)).2 (by decide +kernel)
example := (C205_extends_partial (p := ascii "P") (fs := [ascii "ping"]) (by decide +kernel)).2 (by decide +kernel)
example := (C205_used_partial (root := [ascii "ping"]) (n := ascii "SeqId") (by decide) [(ascii "P", [ascii "add"])]).2 (by decide +kernel)

/-! ## C206: clients implement the interfaces of their services -/

/-- Go: a type implements an interface if it has all the methods asked for, with the same
parameters and results. -/
def Implements (chain : List (List Func)) : Prop := ∀ s ∈ wanted chain, method chain s.name = some s

/-- C206: a client whose declared methods have names of their own implements the interface
of its service. -/
def C206_statement : Prop :=
  ∀ chain : List (List Func), (∀ fs ∈ chain, ((declared fs).map (·.name)).Nodup) → Implements chain

theorem find_named : ∀ {l : List Signature} {s : Signature}, (l.map (·.name)).Nodup → s ∈ l → l.find? (·.name = s.name) = some s
  | t :: l, s, h, hs => by
    rw [List.map_cons, List.nodup_cons] at h
    rcases List.mem_cons.1 hs with rfl | hs
    · rw [List.find?_cons_of_pos (by simp)]
    · rw [List.find?_cons_of_neg, find_named h.2 hs]
      simp only [decide_eq_true_eq]
      intro e
      exact h.1 (by rw [e]; exact List.mem_map_of_mem hs)

theorem signature_declared {fs : List Func} {f : Func} (hf : f ∈ fs) : f.signature ∈ declared fs :=
  List.mem_flatMap.2 ⟨f, hf, List.mem_cons_self⟩

/-- C206 for services that extend no other, in full. -/
theorem C206_root_partial {fs : List Func} (h : ((declared fs).map (·.name)).Nodup) : Implements [fs] := by
  intro s hs
  obtain ⟨f, hf, rfl⟩ : ∃ f ∈ fs, f.signature = s := by simpa [wanted] using hs
  rw [method, find_named h (signature_declared hf)]; rfl

/-- C206, exactly: what a service declares again, under the name of a method that its
parent asks for, has the same parameters and results. -/
theorem C206_partial {fs : List Func} {chain : List (List Func)} (h : ((declared fs).map (·.name)).Nodup) (hc : Implements chain) :
    Implements (fs :: chain) ↔ ∀ s ∈ wanted chain, ∀ t ∈ declared fs, t.name = s.name → t = s := by
  constructor
  · intro hi s hs t ht e
    have := hi s (List.mem_append_right _ hs)
    rw [method, ← e, find_named h ht] at this
    exact Option.some.inj this
  · intro hi s hs
    rcases List.mem_append.1 hs with hs | hs
    · obtain ⟨f, hf, rfl⟩ := List.mem_map.1 hs
      rw [method, find_named h (signature_declared hf)]; rfl
    · rw [method]
      cases hf : (declared fs).find? (·.name = s.name) with
      | none => exact hc s hs
      | some t =>
        have hn : t.name = s.name := by simpa using List.find?_some hf
        rw [hi s hs t (List.mem_of_find?_eq_some hf) hn]; rfl

/-- In particular if nothing is declared again. -/
theorem C206_new_partial {fs : List Func} {chain : List (List Func)} (h : ((declared fs).map (·.name)).Nodup) (hc : Implements chain)
    (hn : ∀ t ∈ declared fs, t.name ∉ (wanted chain).map (·.name)) : Implements (fs :: chain) :=
  (C206_partial h hc).2 fun s hs t ht e => absurd (by rw [e]; exact List.mem_map_of_mem hs) (hn t ht)

/-- The body of a client's method, `err = p.Send…(…)` and `return p.Recv…()`, fits its head,
t_go_generator.cc:1646-1666, and the caller gets result, declared exceptions and error. -/
theorem C206_body_partial (f : Func) : f.send.params = f.signature.params ∧ f.send.results = [ascii "error"] ∧ f.recv.params = [] ∧
    f.recv.results = f.signature.results ∧ f.signature.results.length = (if f.ret.isSome then 1 else 0) + f.excs.length + 1 ∧
    (∀ i, i < f.excs.length → f.signature.results[(if f.ret.isSome then 1 else 0) + i]? = f.excs[i]?) ∧
    f.signature.results.getLast? = some (ascii "error") := by
  refine ⟨rfl, rfl, rfl, rfl, ?_, ?_, ?_⟩
  · cases h : f.ret <;> simp [Func.signature, h, Nat.add_comm]
  · intro i hi
    cases h : f.ret <;> simp [Func.signature, h, Nat.add_comm 1, List.getElem?_append_left, hi]
  · simp [Func.signature]

/-- C206 does not hold: the parent's `get` has no argument, the service's has one. -/
theorem C206_violated : ¬ C206_statement := fun h => by
  have := h [[⟨ascii "get", [ascii "int32"], none, []⟩], [⟨ascii "get", [], none, []⟩]] (by decide +kernel)
  exact absurd (this ⟨ascii "Get", [], [ascii "error"]⟩ (by decide +kernel)) (by decide +kernel)

/-- C206 does not hold: the client of a service with a function `mail` has a method
`SendMail`, which takes the place of the parent's. -/
theorem C206_send_violated : ¬ C206_statement := fun h => by
  have := h [[⟨ascii "mail", [], none, []⟩], [⟨ascii "sendMail", [], some (ascii "bool"), []⟩]] (by decide +kernel)
  exact absurd (this ⟨ascii "SendMail", [], [ascii "bool", ascii "error"]⟩ (by decide +kernel)) (by decide +kernel)

/-- The hypotheses are met. -/
example := C206_new_partial (fs := [⟨ascii "add", [ascii "int32"], some (ascii "int32"), []⟩]) (chain := [[⟨ascii "ping", [], none, []⟩]])
  (by decide +kernel) (C206_root_partial (by decide +kernel)) (by decide +kernel)

end Thrift.Emit
