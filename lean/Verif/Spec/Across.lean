import Verif.Spec.Versions
import Verif.Spec.Service
/-!
# Calls between two versions of a service

A client made from one version of the declarations and a server made from another.
-/

namespace Thrift

/-- What one end got of the fields of an object of the other end. -/
def ReceivedAttrs (S S' : Schema) (lax : Prop) (k : Nat) (as bs : Attrs) : Prop :=
  Received S S' lax (.struct k) ((S.structs k).object 0 as) ((S'.structs k).object 0 bs)

/-- The result is one of the declared exceptions. -/
def Thrown (sd : StructDef) (r : Attrs) : Prop := ∃ m ∈ sd.members, m.id ≠ 0 ∧ attributeOf r m.id.toInt ≠ .nil

/-- What a caller of version `S` should get when the handler of version `S'` delivered `r`
and `err`: the fields that both know, an exception if the handler has thrown one, or an
application exception with the message of the error. -/
def ReturnedAcross (S S' : Schema) (lax : Prop) (m : Method) (r : Attrs) (err : GoErr) (res : Option Attrs × GoErr) : Prop :=
  match err with
  | none => ∃ r', res = (some r', none) ∧ ReceivedAttrs S' S lax m.result r r' ∧
      (Thrown (S'.structs m.result) r → Thrown (S.structs m.result) r')
  | some e => res = (none, some ⟨.application, INTERNAL_ERROR, ascii "Internal error processing " ++ m.name ++ ascii ": " ++ e.msg⟩)

/-- The results of the calls are those of the handler, started in state `h` and called in
order with what its version knows of the arguments; up to and including the first call
that its version does not know or for which it returns an error. -/
inductive AnsweredAcross (S S' : Schema) (lax : Prop) (sv : Service η) : η → List (Method × Attrs) → List (Option Attrs × GoErr) → Prop
  | nil (h) : AnsweredAcross S S' lax sv h [] []
  | cons {h h' m a a' r res cs rs} (args : ReceivedAttrs S S' lax m.args a a') (run : sv.handle m h a' = ((r, none), h'))
      (ret : ReturnedAcross S S' lax m r none res) (rest : AnsweredAcross S S' lax sv h' cs rs) :
      AnsweredAcross S S' lax sv h ((m, a) :: cs) (res :: rs)
  | stop {h h' m a a' r e res cs rs} (args : ReceivedAttrs S S' lax m.args a a') (run : sv.handle m h a' = ((r, some e), h'))
      (ret : ReturnedAcross S S' lax m r (some e) res) (len : rs.length = cs.length)
      (rest : ∀ x ∈ rs, x.1 = none ∧ x.2.isSome = true) :
      AnsweredAcross S S' lax sv h ((m, a) :: cs) (res :: rs)
  | unknown {h m a cs rs} (new : ∀ n ∈ sv.methods, n.name ≠ m.name) (len : rs.length = cs.length)
      (rest : ∀ x ∈ rs, x.1 = none ∧ x.2.isSome = true) :
      AnsweredAcross S S' lax sv h ((m, a) :: cs) ((none, some ⟨.application, UNKNOWN_METHOD, ascii "Unknown function " ++ m.name⟩) :: rs)

/-- A call within what generated code can carry, of a method that the server's version
declares with the same structs or does not have. -/
structure SoundAcross {η : Type} (S S' : Schema) (sv : Service η) (m : Method) (a : Attrs) : Prop where
  known : sv.find m.name = some m ∨ ∀ n ∈ sv.methods, n.name ≠ m.name
  reply : m.oneway = false
  name : m.name.length + 17 < 2 ^ 31
  args : Fine S (.struct m.args) ((S.structs m.args).object 0 a)
  result : ResultDef (S.structs m.result)
  result' : ResultDef (S'.structs m.result)
  fine : ∀ h as r h', sv.handle m h as = ((r, none), h') →
    Fine S' (.struct m.result) ((S'.structs m.result).object 0 r) ∧ OneOutcome S' (S'.structs m.result) r
  message : ∀ h as r e h', sv.handle m h as = ((r, some e), h') → m.name.length + e.msg.length + 28 < 2 ^ 31

/-- The client's version knows the exceptions of the server's. -/
def Forewarned (S S' : Schema) (m : Method) : Prop :=
  ∀ n ∈ (S'.structs m.result).members, n.id ≠ 0 → ∃ n' ∈ (S.structs m.result).members, n.id = n'.id

end Thrift
