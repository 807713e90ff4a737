import Verif.Spec.Service
/-!
# Conversations on one connection

Requests that arrive on a connection one after the other, and what the server sends
in return.
-/

namespace Thrift

/-- A request in the binary protocol: the format of the header, the name, type and
sequence id in it, and the arguments. -/
structure Ask where
  strict : Bool
  name : Bytes
  type : I32
  seqId : I32
  args : Fields

/-- The bytes of a request. -/
def Ask.bytes (a : Ask) : Bytes := BinarySpec.message a.strict a.name a.type a.seqId ++ BinarySpec.encode (.struct a.args)

/-- The requests that a reader with setting `strictRead` can take apart. -/
structure Ask.Proper (strictRead : Bool) (a : Ask) : Prop where
  name : a.name.length + 17 < 2 ^ 31
  type : a.type.toNat < 256
  header : a.strict = true ∨ strictRead = false
  args : a.args.WF

/-- The generated reader for `sd` makes `as` of the binary encoding of `fs`. -/
def Understood (S : Schema) (L : FloatLib) (mem : List Nat → Nat) (msd : Int) (sd : StructDef) (fs : Fields) (as : Attrs) : Prop :=
  ∃ N, ∀ fuel, N ≤ fuel → ∀ i : Bin, i.checkReadLength = false → ∀ rest x,
    (genRead binary S L mem msd fuel [] sd).run duplex i (BinarySpec.encode (.struct fs) ++ rest, x) = (.ok ((as, none), i), (rest, x))

/-- `gs` carries the fields of `r`: the generated reader gets the same data back. -/
def Carries (S : Schema) (L : FloatLib) (mem : List Nat → Nat) (msd : Int) (sd : StructDef) (gs : Fields) (r : Attrs) : Prop :=
  gs.WF ∧ ∃ r', Understood S L mem msd sd gs r' ∧ SameAttrs sd r r'

/-- An application exception on the wire. -/
def exceptionReply (strict : Bool) (name : Bytes) (q : I32) (text : Bytes) (code : I32) : Bytes :=
  BinarySpec.message strict name EXCEPTION q ++ BinarySpec.encode (.struct (.cons 1 (.str text) (.cons 2 (.i32 code) .nil)))

section
variable (S : Schema) (L : FloatLib) (mem : List Nat → Nat) (msd : Int) {η : Type} (sv : Service η) (strict : Bool)

/-- `Talk h asks replies left h'`: from handler state `h` on, the requests `asks` get
the answers `replies`, one each and in order, until one of them is answered with an
exception; the requests `left` behind that one get no answer.  `strict` is the format
of the headers of the answers. -/
inductive Talk : η → List Ask → List Bytes → List Ask → η → Prop
  | done (h) : Talk h [] [] [] h
  | reply {h h' h'' a asks m as r gs replies left} (known : sv.find a.name = some m) (twoway : m.oneway = false)
      (args : Understood S L mem msd (S.structs m.args) a.args as) (run : sv.handle m h as = ((r, none), h'))
      (carries : Carries S L mem msd (S.structs m.result) gs r)
      (rest : Talk h' asks replies left h'') :
      Talk h (a :: asks) ((BinarySpec.message strict a.name REPLY a.seqId ++ BinarySpec.encode (.struct gs)) :: replies) left h''
  | oneway {h h' h'' a asks m as r replies left} (known : sv.find a.name = some m) (oneway : m.oneway = true)
      (args : Understood S L mem msd (S.structs m.args) a.args as) (run : sv.handle m h as = ((r, none), h'))
      (rest : Talk h' asks replies left h'') :
      Talk h (a :: asks) ((BinarySpec.message strict a.name REPLY a.seqId ++ [0]) :: replies) left h''
  | failed {h h' a asks m as r e} (known : sv.find a.name = some m)
      (args : Understood S L mem msd (S.structs m.args) a.args as) (run : sv.handle m h as = ((r, some e), h')) :
      Talk h (a :: asks) [exceptionReply strict a.name a.seqId
        (ascii "Internal error processing " ++ a.name ++ ascii ": " ++ e.msg) 6] asks h'
  | unknown {h a asks} (unknown : ∀ m ∈ sv.methods, m.name ≠ a.name) :
      Talk h (a :: asks) [exceptionReply strict a.name a.seqId (ascii "Unknown function " ++ a.name) 1] asks h

/-- A request for an unknown method, or one for a known method whose arguments can be
read and whose results are within what generated code can carry. -/
def Ask.Fit (a : Ask) : Prop :=
  (∀ m ∈ sv.methods, m.name ≠ a.name) ∨ ∃ m as, sv.find a.name = some m ∧ Understood S L mem msd (S.structs m.args) a.args as ∧
    (if m.oneway then (S.structs m.result).members = [] else ResultDef (S.structs m.result) ∧
      ∀ h r h', sv.handle m h as = ((r, none), h') →
        Fine S (.struct m.result) ((S.structs m.result).object 0 r) ∧ OneOutcome S (S.structs m.result) r) ∧
    ∀ h r e h', sv.handle m h as = ((r, some e), h') → m.name.length + e.msg.length + 28 < 2 ^ 31

end
end Thrift
