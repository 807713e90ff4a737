import Verif.Spec.RequestLoop
import Verif.Spec.Compact
import Verif.Lemmas.CompactService
/-!
# Conversations on one connection over the compact protocol

As `Spec/RequestLoop.lean`; the header has one format.
-/

namespace Thrift

/-- A request: the name, type and sequence id in the header, and the arguments. -/
structure CAsk where
  name : Bytes
  type : I32
  seqId : I32
  args : Fields

/-- The bytes of a request. -/
def CAsk.bytes (a : CAsk) : Bytes := CompactSpec.message a.name a.type a.seqId ++ CompactSpec.encode (.struct a.args)

/-- The requests that a reader can take apart.  The header has two bits for the
type. -/
structure CAsk.Proper (a : CAsk) : Prop where
  name : a.name.length + 17 < 2 ^ 31
  type : a.type.toNat < 4

section
variable (f : Nat) (S : Schema) (L : FloatLib) (mem : List Nat → Nat) (msd : Int)

/-- The generated reader for `sd` makes `as` of the compact encoding of `fs`. -/
def CUnderstood (sd : StructDef) (fs : Fields) (as : Attrs) : Prop :=
  ∃ N, ∀ fuel, N ≤ fuel → ∀ i : Cmp, i.boolValueIsNotNull = false → ∃ i' : Cmp, i'.boolValueIsNotNull = false ∧ ∀ rest x,
    (genRead (compact f) S L mem msd fuel [] sd).run duplex i (CompactSpec.encode (.struct fs) ++ rest, x) = (.ok ((as, none), i'), (rest, x))

/-- `gs` carries the fields of `r`. -/
def CCarries (sd : StructDef) (gs : Fields) (r : Attrs) : Prop :=
  gs.WF ∧ ∃ r', CUnderstood f S L mem msd sd gs r' ∧ SameAttrs sd r r'

/-- An application exception on the wire. -/
def cExceptionReply (name : Bytes) (q : I32) (text : Bytes) (code : I32) : Bytes :=
  CompactSpec.message name EXCEPTION q ++ CompactSpec.encode (.struct (.cons 1 (.str text) (.cons 2 (.i32 code) .nil)))

variable {η : Type} (sv : Service η)

/-- The requests `asks` get the answers `replies`, one each and in order, until one
of them is answered with an exception; the requests `left` behind that one get no
answer. -/
inductive CTalk : η → List CAsk → List Bytes → List CAsk → η → Prop
  | done (h) : CTalk h [] [] [] h
  | reply {h h' h'' a asks m as r gs replies left} (known : sv.find a.name = some m) (twoway : m.oneway = false)
      (args : CUnderstood f S L mem msd (S.structs m.args) a.args as) (run : sv.handle m h as = ((r, none), h'))
      (carries : CCarries f S L mem msd (S.structs m.result) gs r)
      (rest : CTalk h' asks replies left h'') :
      CTalk h (a :: asks) ((CompactSpec.message a.name REPLY a.seqId ++ CompactSpec.encode (.struct gs)) :: replies) left h''
  | oneway {h h' h'' a asks m as r replies left} (known : sv.find a.name = some m) (oneway : m.oneway = true)
      (args : CUnderstood f S L mem msd (S.structs m.args) a.args as) (run : sv.handle m h as = ((r, none), h'))
      (rest : CTalk h' asks replies left h'') :
      CTalk h (a :: asks) ((CompactSpec.message a.name REPLY a.seqId ++ [0]) :: replies) left h''
  | failed {h h' a asks m as r e} (known : sv.find a.name = some m)
      (args : CUnderstood f S L mem msd (S.structs m.args) a.args as) (run : sv.handle m h as = ((r, some e), h')) :
      CTalk h (a :: asks) [cExceptionReply a.name a.seqId
        (ascii "Internal error processing " ++ a.name ++ ascii ": " ++ e.msg) 6] asks h'
  | unknown {h a asks} (unknown : ∀ m ∈ sv.methods, m.name ≠ a.name) :
      CTalk h (a :: asks) [cExceptionReply a.name a.seqId (ascii "Unknown function " ++ a.name) 1] asks h

/-- A request for an unknown method whose arguments can be skipped, or one for a
known method whose arguments can be read and whose results are, if `kept`, within
what the compact protocol can carry. -/
def CAsk.Fit (kept : Prop) (a : CAsk) : Prop :=
  ((∀ m ∈ sv.methods, m.name ≠ a.name) ∧ a.args.WF ∧ a.args.Tame) ∨
  ∃ m as, sv.find a.name = some m ∧ CUnderstood f S L mem msd (S.structs m.args) a.args as ∧
    (if m.oneway then (S.structs m.result).members = [] else ResultDef (S.structs m.result) ∧
      ∀ h r h', sv.handle m h as = ((r, none), h') →
        Fine S (.struct m.result) ((S.structs m.result).object 0 r) ∧ OneOutcome S (S.structs m.result) r ∧
        Typed S (.struct m.result) ((S.structs m.result).object 0 r) ∧
        (kept → ∀ x ∈ (S.structs m.result).members, ∀ v, Means S x.ty (attributeOf r x.id.toInt) v → v ≠ .bool false ∧ v.Kept)) ∧
    ∀ h r e h', sv.handle m h as = ((r, some e), h') → m.name.length + e.msg.length + 28 < 2 ^ 31

end
end Thrift
