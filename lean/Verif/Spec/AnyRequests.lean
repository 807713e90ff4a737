import Verif.Spec.RequestLoop
import Verif.Spec.BinaryForms
/-!
# What a server answers to arbitrary bytes

The bytes that arrive on a connection are taken apart from the front: a message
header, the arguments, the next header and so on, for as long as that is possible.
-/

namespace Thrift

/-- How a connection ends: with the handler in some state, or in a panic. -/
inductive Fate (η : Type) where
  | ended (h : η)
  | panicked

/-- An application exception on the wire; an empty text is left out. -/
def refusal (strict : Bool) (name : Bytes) (q : I32) (text : Bytes) (code : I32) : Bytes :=
  if text = [] then BinarySpec.message strict name EXCEPTION q ++ BinarySpec.encode (.struct (.cons 2 (.i32 code) .nil))
  else exceptionReply strict name q text code

/-- The input begins with a message header. -/
def Headed (strictRead : Bool) (inp : Bytes) (name : Bytes) (q : I32) (body : Bytes) : Prop :=
  ∃ hd type, inp = hd ++ body ∧ BinarySpec.LooseMessage strictRead name type q hd

/-- What a service must deliver to be answered at all: results within what generated
code can carry. -/
def Service.Able (S : Schema) (sv : Service η) : Prop :=
  ∀ m ∈ sv.methods, if m.oneway then (S.structs m.result).members = [] else ResultDef (S.structs m.result) ∧
    ∀ h as r h', sv.handle m h as = ((r, none), h') →
      Fine S (.struct m.result) ((S.structs m.result).object 0 r) ∧ OneOutcome S (S.structs m.result) r

section
variable (S : Schema) (L : FloatLib) (mem : List Nat → Nat) (msd : Int) (i : Bin)

/-- The generated reader for `sd` makes `as` and the error `e` of the front of `inp` and
leaves `rest`. -/
def Makes (sd : StructDef) (inp : Bytes) (as : Attrs) (e : GoErr) (rest : Bytes) : Prop :=
  ∃ N, ∀ fuel, N ≤ fuel → (genRead binary S L mem msd fuel [] sd).run memory i inp = (.ok ((as, e), i), rest)

/-- The generated reader for `sd` panics on `inp`. -/
def Breaks (sd : StructDef) (inp : Bytes) : Prop :=
  ∃ N, ∀ fuel, N ≤ fuel → ((genRead binary S L mem msd fuel [] sd).run memory i inp).1 = .panic

variable {η : Type} (sv : Service η) (strict : Bool)

/-- `Serving h inp replies fate`: from handler state `h` on, the input `inp` gets the
answers `replies`.  There is one answer for each message header at the place where one is due, whatever the type
in the header, until a request is refused, the arguments of a request break the reader,
or something arrives that is no message header. -/
inductive Serving : η → Bytes → List Bytes → Fate η → Prop
  | silent {h inp} (no : ∀ name q body, ¬ Headed i.strictRead inp name q body) : Serving h inp [] (.ended h)
  | reply {h h' inp name q body m as rest r gs replies fate} (header : Headed i.strictRead inp name q body)
      (known : sv.find name = some m) (twoway : m.oneway = false)
      (args : Makes S L mem msd i (S.structs m.args) body as none rest) (run : sv.handle m h as = ((r, none), h'))
      (carries : Carries S L mem msd (S.structs m.result) gs r) (next : Serving h' rest replies fate) :
      Serving h inp ((BinarySpec.message strict name REPLY q ++ BinarySpec.encode (.struct gs)) :: replies) fate
  | oneway {h h' inp name q body m as rest r replies fate} (header : Headed i.strictRead inp name q body)
      (known : sv.find name = some m) (oneway : m.oneway = true)
      (args : Makes S L mem msd i (S.structs m.args) body as none rest) (run : sv.handle m h as = ((r, none), h'))
      (next : Serving h' rest replies fate) :
      Serving h inp ((BinarySpec.message strict name REPLY q ++ [0]) :: replies) fate
  | failed {h h' inp name q body m as rest r e} (header : Headed i.strictRead inp name q body)
      (known : sv.find name = some m) (args : Makes S L mem msd i (S.structs m.args) body as none rest)
      (run : sv.handle m h as = ((r, some e), h')) :
      Serving h inp [refusal strict name q (ascii "Internal error processing " ++ name ++ ascii ": " ++ e.msg) 6] (.ended h')
  | malformed {h inp name q body m as rest e} (header : Headed i.strictRead inp name q body)
      (known : sv.find name = some m) (args : Makes S L mem msd i (S.structs m.args) body as (some e) rest) :
      Serving h inp [refusal strict name q e.msg 7] (.ended h)
  | unknown {h inp name q body} (header : Headed i.strictRead inp name q body)
      (unknown : ∀ m ∈ sv.methods, m.name ≠ name) :
      Serving h inp [refusal strict name q (ascii "Unknown function " ++ name) 1] (.ended h)
  | broken {h inp name q body m} (header : Headed i.strictRead inp name q body)
      (known : sv.find name = some m) (args : Breaks S L mem msd i (S.structs m.args) body) :
      Serving h inp [] .panicked

end
end Thrift
