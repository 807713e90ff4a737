import Verif.Model.Gen
import Verif.Model.Service
/-!
# The text that the generator prints

Names, enums, constants, default values and struct declarations, as
`t_go_generator.cc` writes them into the Go files.  The other models take the
generated code as given; here the compiler's own functions are modelled.

Identifiers of the IDL are ASCII, so the C library's `isalpha`, `toupper` and
`tolower` are those of the "C" locale.
-/

namespace Thrift.Emit

/-! ## Names -/

/-- `isupper`. -/
def isUpper (c : Byte) : Bool := 65 ≤ c.toNat && c.toNat ≤ 90
/-- `islower`. -/
def isLower (c : Byte) : Bool := 97 ≤ c.toNat && c.toNat ≤ 122
/-- `isalpha`. -/
def isAlpha (c : Byte) : Bool := isUpper c || isLower c
/-- `toupper`. -/
def upper (c : Byte) : Byte := if isLower c then c - 32 else c
/-- `tolower`. -/
def lower (c : Byte) : Byte := if isUpper c then c + 32 else c

/-- The loop of `publicize` and `privatize`, t_go_generator.cc:262-268, 283-289,
from the second character on: `_` and a letter become the capital letter, and
the search goes on behind it. -/
def camel : Bytes → Bytes
  | [] => []
  | [c] => [c]
  | c :: d :: r => if c = 95 ∧ isAlpha d then upper d :: camel r else c :: camel (d :: r)

/-- t_go_generator.cc:250-271. -/
def publicize : Bytes → Bytes
  | [] => []
  | c :: r => upper c :: camel r

/-- t_go_generator.cc:273-292. -/
def privatize : Bytes → Bytes
  | [] => []
  | c :: r => lower c :: camel r

/-- The words looked for, by the first character of the name,
t_go_generator.cc:303-409. -/
def reserved (c : Byte) : List Bytes :=
  if c = 98 ∨ c = 66 then [ascii "break"]
  else if c = 99 ∨ c = 67 then [ascii "case", ascii "chan", ascii "const", ascii "continue"]
  else if c = 100 ∨ c = 68 then [ascii "default", ascii "defer"]
  else if c = 101 ∨ c = 69 then [ascii "else", ascii "error"]
  else if c = 102 ∨ c = 70 then [ascii "fallthrough", ascii "for", ascii "func"]
  else if c = 103 ∨ c = 71 then [ascii "go", ascii "goto"]
  else if c = 105 ∨ c = 73 then [ascii "if", ascii "import", ascii "interface"]
  else if c = 109 ∨ c = 77 then [ascii "map"]
  else if c = 112 ∨ c = 80 then [ascii "package"]
  else if c = 114 ∨ c = 82 then [ascii "range", ascii "return"]
  else if c = 115 ∨ c = 83 then [ascii "select", ascii "struct", ascii "switch"]
  else if c = 116 ∨ c = 84 then [ascii "type"]
  else if c = 118 ∨ c = 86 then [ascii "var"]
  else []

/-- `variable_name_to_go_name`, t_go_generator.cc:294-413. -/
def goName : Bytes → Bytes
  | [] => []
  | c :: r =>
    if (c :: r).map lower ∈ reserved c then (c :: r).map lower ++ ascii "_a1" else c :: r

/-- The Go field of a struct member, t_go_generator.cc:906, 950-951, 1011-1012. -/
def fieldName (n : Bytes) : Bytes := publicize (goName n)

/-- The struct that holds the arguments of a method, as declared: the parser
calls it after the method, with `_args` behind, and its declaration is printed
with `publicize`, t_go_generator.cc:866, 1447-1448. -/
def declaredArgs (f : Bytes) : Bytes := publicize (f ++ ascii "_args")
/-- The struct for the results, as declared, t_go_generator.cc:866, 1461, 1478. -/
def declaredResult (f : Bytes) : Bytes := publicize (f ++ ascii "_result")
/-- The argument struct as the processor calls it, t_go_generator.cc:2310, 2322. -/
def processorArgs (f : Bytes) : Bytes := publicize f ++ ascii "Args"
/-- The result struct as the processor calls it, t_go_generator.cc:2311, 2333. -/
def processorResult (f : Bytes) : Bytes := publicize f ++ ascii "Result"
/-- The argument struct as the client calls it, t_go_generator.cc:1675, 1686. -/
def clientArgs (f : Bytes) : Bytes := publicize (privatize f ++ ascii "Args")
/-- The result struct as the client calls it, t_go_generator.cc:1704, 1756. -/
def clientResult (f : Bytes) : Bytes := publicize (privatize f ++ ascii "Result")

/-- The methods of a client type for the functions `fs`,
t_go_generator.cc:1635, 1673 (with 3117-3118) and 1707. -/
def clientMethods (fs : List Bytes) : List Bytes :=
  fs.flatMap fun f => [publicize f, ascii "Send" ++ publicize f, ascii "Recv" ++ publicize f]

/-- The names declared by the head of a client method: the receiver, the
parameters, the results (`retval` with a number, then the declared exceptions,
then `err`), t_go_generator.cc:1635, 3127-3160, 3166-3185. -/
def signature (args : List Bytes) (ret : Option Bytes) (excs : List Bytes) : List Bytes :=
  ascii "p" :: args.map goName ++
    ((ret.map (ascii "retval" ++ ·)).toList ++ excs.map goName ++ [ascii "err"])

/-! ## Enums -/

/-- A declared enum: its name, and the constants with their explicit values. -/
structure Enum where
  name : Bytes
  constants : List (Bytes × Option Int)

/-- The values, t_go_generator.cc:607-614.  Simplification: no wrap around of the
compiler's `int`. -/
def numbered : Int → List (Bytes × Option Int) → List (Bytes × Int)
  | _, [] => []
  | _, (n, some v) :: r => (n, v) :: numbered v r
  | last, (n, none) :: r => (n, last + 1) :: numbered (last + 1) r

/-- The constants with their values. -/
def Enum.values (e : Enum) : List (Bytes × Int) := numbered (-1) e.constants

/-- The text of a constant; names need no escapes, t_go_generator.cc:616, 622. -/
def Enum.text (e : Enum) (n : Bytes) : Bytes := publicize e.name ++ ascii "_" ++ n

/-- `String`, t_go_generator.cc:600-601, 621-622, 633-636: a Go `switch` takes
the first case that matches. -/
def Enum.toString (e : Enum) (v : Int) : Bytes :=
  match e.values.find? fun c => c.2 = v with
  | some c => e.text c.1
  | none => ascii "<UNSET>"

/-- `From…String`, t_go_generator.cc:603-605, 624-630, 637-640.  The two names
compared at L624 are always the same, so the case has one label. -/
def Enum.fromString (e : Enum) (s : Bytes) : Int :=
  match e.values.find? fun c => s = e.text c.1 with
  | some c => c.2
  | none => -10000

/-! ## Constants -/

/-- The number of decimal digits. -/
def digits (n : Nat) : Nat := (Nat.repr n).length

/-- Division, rounded to the nearest, ties to even. -/
def roundDiv (n k : Nat) : Nat :=
  let q := n / k
  let r := n % k
  if 2 * r < k then q else if 2 * r > k then q + 1 else if q % 2 = 0 then q else q + 1

/-- The number that is read back from what `out << value->get_double()` prints,
t_go_generator.cc:706: a stream prints six significant digits.  For doubles that
are natural numbers. -/
def printedDouble (n : Nat) : Nat :=
  if n < 1000000 then n else roundDiv n (10 ^ (digits n - 6)) * 10 ^ (digits n - 6)

/-- A constant value of the IDL: of a base type or enum, or a struct with some
fields, a list or set, a map. -/
inductive Const where
  | scalar
  | struct (fields : List (Bytes × Const))
  | list (elems : List Const)
  | map (entries : List (Const × Const))

/-- A Go variable: one with a name of its own, or one from `tmp`. -/
inductive Var where
  | named (n : Bytes)
  | tmp (k : Nat)
  deriving DecidableEq

/-- Go statements, reduced to the variables in them: `x := …` with nothing but
literals and constructors on the right, a statement that uses variables, a
block. -/
inductive Stmt where
  | define (x : Var)
  | use (xs : List Var)
  | block (body : List Stmt)

mutual
/-- What `render_const_value` prints behind the first expression of a constant
that is kept in `name`, t_go_generator.cc:673-819; `n` numbers the
temporaries. -/
def render (name : Var) (n : Nat) : Const → List Stmt × Nat
  | .scalar => ([], n)
  | .struct fs => let (b, n) := renderFields name n fs; ([.block b], n)
  | .list es => let (b, n) := renderElems name n es; ([.block b], n)
  | .map es => let (b, n) := renderEntries name n es; ([.block b], n)
/-- The fields of a struct, t_go_generator.cc:725-752. -/
def renderFields (name : Var) (n : Nat) : List (Bytes × Const) → List Stmt × Nat
  | [] => ([], n)
  | (_, .scalar) :: r => let (b, n) := renderFields name n r; (.use [name] :: b, n)
  | (_, c) :: r =>
    let v := Var.tmp (n + 1)
    let (a, n) := render v (n + 2) c
    let (b, n) := renderFields name n r
    (.define v :: a ++ .use [name, v] :: b, n)
/-- The elements of a list or set, t_go_generator.cc:786-791, 804-809. -/
def renderElems (name : Var) (n : Nat) : List Const → List Stmt × Nat
  | [] => ([], n)
  | c :: r =>
    let v := Var.tmp n
    let (a, n) := render v (n + 1) c
    let (b, n) := renderElems name n r
    (.define v :: a ++ .use [name, v] :: b, n)
/-- The entries of a map, t_go_generator.cc:766-773. -/
def renderEntries (name : Var) (n : Nat) : List (Const × Const) → List Stmt × Nat
  | [] => ([], n)
  | (k, c) :: r =>
    let x := Var.tmp n
    let v := Var.tmp (n + 1)
    let (a, n) := render x (n + 2) k
    let (a', n) := render v n c
    let (b, n) := renderEntries name n r
    (.define x :: a ++ .define v :: a' ++ .use [name, x, v] :: b, n)
end

/-- The initialisation of a constant, t_go_generator.cc:663-668: the variable of
the constant is assigned, and passed on as the name. -/
def constInit (name : Bytes) (n : Nat) (c : Const) : List Stmt :=
  .use [.named name] :: (render (.named name) n c).1

/-- The assignment of a default in `New…`, t_go_generator.cc:944-956: a field of
`output` is assigned, the name passed on is that of the member. -/
def defaultInit (member : Bytes) (n : Nat) (c : Const) : List Stmt :=
  .use [.named (ascii "output")] :: (render (.named member) n c).1

/-! ## Struct declarations -/

/-- A line of a Go struct declaration: the blank field of an unused id, a field
with the Go type of its member, a field with the name of a Thrift type
constant (`thrift.I32`) where the type should be. -/
inductive Line where
  | blank
  | typed (name : Bytes) (ty : Ty)
  | constant (name : Bytes) (t : TType)
  deriving DecidableEq

/-- The loop over the sorted members, t_go_generator.cc:893-911. -/
def lines : Int → List Member → List Line
  | _, [] => []
  | pos, m :: r =>
    List.replicate ((m.id.toInt - pos).toNat - if pos = 0 ∧ m.id.toInt ≠ 0 then 1 else 0) .blank ++
      .typed (fieldName m.name) m.ty :: lines (m.id.toInt + 1) r

/-- The fields of the Go struct, t_go_generator.cc:892-919. -/
def structLines (sd : StructDef) : List Line :=
  match sd.sorted with
  | [] => []
  | m :: r =>
    if 0 ≤ m.id.toInt then lines 0 (m :: r)
    else sd.members.map fun m => .constant (publicize m.name) m.ty.code

/-! ## Services that extend others -/

/-- A processor map, as the function it represents. -/
abbrev Dispatch := Bytes → Option Method

/-- Entering methods one by one, t_go_generator.cc:2233-2237, 2280-2284. -/
def enter : List Method → Dispatch → Dispatch
  | [], d => d
  | m :: ms, d => enter ms fun x => if x = m.name then some m else d x

/-- The processor map of a service: the constructor of a service without parent
starts with an empty map, t_go_generator.cc:2231; that of an extending service
with the parent's, which it shares, t_go_generator.cc:2267-2268, 2278.  The
argument lists the services from the first ancestor down. -/
def processorMap : List (List Method) → Dispatch
  | chain => chain.foldl (fun d ms => enter ms d) fun _ => none

end Thrift.Emit
