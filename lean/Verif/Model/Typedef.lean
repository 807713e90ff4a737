import Verif.Model.Package
/-!
# Typedefs in the generated code

A typedef becomes a Go type of its own (`type UserId int32`).  The generator looks
through typedefs in some places (`get_true_type`) and not in others; this file
models the Go types in the code for reading and writing fields, what an enum field
behind a typedef does, what containers make of values of such types, and the
exceptions of `Recv…`.

The name of a typedef, as `get_name` gives it, is its symbol.
-/

namespace Thrift.Emit

/-! ## Go types -/

/-- The Go types of fields and variables: predeclared ones, `[]byte`, a pointer
to a generated struct, the library's container interfaces, and a declared type
with the type in its declaration. -/
inductive GoTy where
  | bool | byte | int16 | int32 | int64 | float64 | string | bytes
  | ptr (n : Bytes)
  | tlist | tset | tmap
  | named (n : Bytes) (d : GoTy)
  deriving DecidableEq

/-- The text of a type, t_go_generator.cc:3257-3315. -/
def GoTy.text : GoTy → Bytes
  | .bool => ascii "bool" | .byte => ascii "byte" | .int16 => ascii "int16" | .int32 => ascii "int32"
  | .int64 => ascii "int64" | .float64 => ascii "float64" | .string => ascii "string"
  | .bytes => ascii "[]byte" | .ptr n => ascii "*" ++ n
  | .tlist => ascii "thrift.TList" | .tset => ascii "thrift.TSet" | .tmap => ascii "thrift.TMap"
  | .named n _ => n

/-- What `type_to_go_type` prints, t_go_generator.cc:3257-3315, as a type: an enum
is declared as `int64` (L595), a typedef by what it stands for, unless that has
the same name already (L570-582). -/
def goType : TTy → GoTy
  | .bool => .bool | .byte => .byte | .i16 => .int16 | .i32 => .int32 | .i64 => .int64
  | .double => .float64 | .string => .string | .binary => .bytes
  | .enum n => .named (publicize n) .int64
  | .struct n => .ptr (publicize n)
  | .list _ => .tlist | .set _ => .tset | .map _ _ => .tmap
  | .typedef n t => if (goType t).text = publicize n then goType t else .named (publicize n) (goType t)

/-- Go's underlying type. -/
def GoTy.underlying : GoTy → GoTy
  | .named _ d => d.underlying
  | t => t

/-- Is it a type by name, as opposed to a pointer or slice type? -/
def GoTy.hasName : GoTy → Bool
  | .ptr _ | .bytes => false
  | _ => true

/-- Is it an interface? -/
def GoTy.interface (t : GoTy) : Bool :=
  match t.underlying with
  | .tlist | .tset | .tmap => true
  | _ => false

/-- Does a value of this type have the method?  A pointer to a struct has those
of the struct, an interface those it lists; a type declared as a pointer or as a
predeclared type has none but its own, and typedefs get none. -/
def GoTy.method (t : GoTy) (m : Bytes) : Bool :=
  match t with
  | .ptr _ => m = ascii "Read" || m = ascii "Write"
  | t => match t.underlying with
    | .tlist => m = ascii "Len" || m = ascii "Push" || m = ascii "Iter"
    | .tset => m = ascii "Len" || m = ascii "Add" || m = ascii "Front"
    | .tmap => m = ascii "Len" || m = ascii "Set" || m = ascii "Iter"
    | _ => false

/-- Go's assignability: the same type; the same underlying type, one of them
without a name; an interface with the methods of the other, here the same. -/
def GoTy.assignable (a b : GoTy) : Bool :=
  a = b || (a.underlying = b.underlying && (!a.hasName || !b.hasName || b.interface))

/-- Is it a number type? -/
def GoTy.numeric : GoTy → Bool
  | .byte | .int16 | .int32 | .int64 | .float64 => true
  | _ => false

/-- Go's conversions, among these types: assignable or with the same underlying
type, between numbers, between strings and byte slices. -/
def GoTy.convertible (a b : GoTy) : Bool :=
  a.underlying = b.underlying || (a.underlying.numeric && b.underlying.numeric) ||
    (a.underlying = .string && b.underlying = .bytes) || (a.underlying = .bytes && b.underlying = .string)

/-- One demand on types in printed code: an assignment (or an argument), a
conversion, a method call. -/
inductive Check where
  | assign (a b : GoTy)
  | convert (a b : GoTy)
  | call (t : GoTy) (m : Bytes)
  deriving DecidableEq

/-- Does Go accept it? -/
def Check.ok : Check → Bool
  | .assign a b => a.assignable b
  | .convert a b => a.convertible b
  | .call t m => t.method m

/-- The Go type that the protocol reads and writes for a base type or enum,
t_go_generator.cc:2478-2518, 2770-2818. -/
def wireTy : TTy → GoTy
  | .bool => .bool | .byte => .byte | .i16 => .int16 | .i32 => .int32 | .i64 => .int64
  | .double => .float64 | .string => .string | .binary => .bytes
  | _ => .int32

/-- Is it a typedef? -/
def TTy.isTypedef : TTy → Bool
  | .typedef _ _ => true
  | _ => false

/-- Is it an enum, without looking through typedefs? -/
def TTy.isEnum : TTy → Bool
  | .enum _ => true
  | _ => false

/-- The code that reads a value of the declared type `t` into a variable of Go
type `v`: structs L2558-2579, containers L2584-2741, base types and enums
L2476-2548.  Elements are read into variables declared on the spot, whose Go type
is that of the constructor or the conversion. -/
def readChecks (v : GoTy) : TTy → List Check
  | .struct n => [.assign (.ptr (publicize n)) v, .call v (ascii "Read")]
  | .list e => .assign .tlist v :: readChecks (elemVar e) e ++ [.call v (ascii "Push")]
  | .set e => .assign .tset v :: readChecks (elemVar e) e ++ [.call v (ascii "Add")]
  | .map k e => .assign .tmap v :: readChecks (elemVar k) k ++ readChecks (elemVar e) e ++ [.call v (ascii "Set")]
  | .enum n => [.convert .int32 (goType (.enum n)), .assign (goType (.enum n)) v]
  | .typedef n t =>
    match t.behind with
    | .struct _ | .list _ | .set _ | .map _ _ => readChecks v t
    | b => [.convert (wireTy b) (goType (.typedef n t)), .assign (goType (.typedef n t)) v]
  | b => [.assign (wireTy b) v]
where
  /-- The Go type of a variable that an element is read into. -/
  elemVar (e : TTy) : GoTy :=
    match e.behind with
    | .struct n => .ptr (publicize n)
    | .list _ => .tlist | .set _ => .tset | .map _ _ => .tmap
    | _ => goType e

/-- The code that writes a variable of Go type `v`: structs L2844-2854, containers
L2856-2987, base types and enums L2768-2840.  Elements are asserted to be of the Go
type of their declaration (L2905, L2917, L2929). -/
def writeChecks (v : GoTy) : TTy → List Check
  | .struct _ => [.call v (ascii "Write")]
  | .list e => .call v (ascii "Len") :: .call v (ascii "Iter") :: writeChecks (goType e) e
  | .set e => .call v (ascii "Len") :: .call v (ascii "Front") :: writeChecks (goType e) e
  | .map k e => .call v (ascii "Len") :: .call v (ascii "Iter") :: writeChecks (goType k) k ++ writeChecks (goType e) e
  | .binary => [.assign v .bytes]
  | .typedef _ t => writeChecks v t
  | b => [.convert v (wireTy b)]

/-- All demands of `ReadField…` and `WriteField…` for a field,
t_go_generator.cc:892-911, 1245-1254, 1340-1391. -/
def fieldChecks (t : TTy) : List Check := readChecks (goType t) t ++ writeChecks (goType t) t

/-! ## Enum fields -/

/-- What `New…` puts into an enum field without default,
t_go_generator.cc:951, 957-958: typedefs are looked through. -/
def unsetEnum : I64 := BitVec.ofInt 64 (-2 ^ 31 - 1)

/-- `IsSet…` of an enum field, t_go_generator.cc:1055-1057, 1108-1110: typedefs
are looked through. -/
def enumIsSet (v : I64) : Bool := v ≠ unsetEnum

/-- What `WriteField…` sends for an enum field, if it sends the field,
t_go_generator.cc:1350, 2817: the test is there for optional fields and for types
that are enums without looking through typedefs. -/
def sentEnum (optional : Bool) (t : TTy) (v : I64) : Option I32 :=
  if (optional || t.isEnum) && !enumIsSet v then none else some (v.setWidth 32)

/-- What `ReadField…` makes of it, t_go_generator.cc:2519, 2541-2545. -/
def receivedEnum (w : I32) : I64 := w.signExtend 64

/-! ## Elements of containers -/

/-- The Go value that is put into a container for an element read as `d`: a base
type or enum behind a typedef is converted to the Go type of the typedef
(t_go_generator.cc:2529-2545), a type without methods that the library does not
know (`obj`); containers are interfaces, so that the library's own object is put
in.  `tag` tells such values apart. -/
def element (t : TTy) (tag : Nat) (d : Dyn) : Dyn :=
  if t.isTypedef then
    match t.behind with
    | .struct _ | .list _ | .set _ | .map _ _ => d
    | _ => .obj tag
  else d

/-! ## Exceptions of `Recv…` -/

/-- The names in the head of `Recv…`: the receiver, the result, the exceptions,
`err`, t_go_generator.cc:1706-1722, 3166-3185. -/
def recvHead (ret : Bool) (excs : List Bytes) : List Bytes :=
  ascii "p" :: (if ret then [ascii "value"] else []) ++ excs.map goName ++ [ascii "err"]

/-- The variables that its body declares, t_go_generator.cc:1726-1756: with a
result variable from `tmp`. -/
def recvLocals (result : Bytes) : List Bytes := [ascii "iprot", ascii "mTypeId", ascii "seqId", result]

/-- Other names that the body relies on: the package `thrift`, `nil` and the
constructor of the result struct, t_go_generator.cc:1735, 1740, 1757. -/
def recvUses (mk : Bytes) : List Bytes := [ascii "thrift", ascii "nil", mk]

/-- `Recv…` as far as its names go: all are declared once, the names the body relies
on are not hidden by them, the variables assigned at the end (by the names of the
exceptions as they are in the IDL) are in the head, and the fields taken from the
result struct exist there, t_go_generator.cc:1762-1778, 906. -/
structure RecvAccepted (ret : Bool) (result mk : Bytes) (excs : List Bytes) : Prop where
  once : (recvHead ret excs ++ recvLocals result).Nodup
  free : ∀ n ∈ recvUses mk, n ∉ recvHead ret excs
  assigned : ∀ e ∈ excs, e ∈ recvHead ret excs
  fields : ∀ e ∈ excs, publicize e ∈ excs.map fieldName

end Thrift.Emit
