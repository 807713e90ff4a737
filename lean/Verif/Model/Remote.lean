import Verif.Model.Typedef
/-!
# The command line program of a service

`generate_service_remote`, t_go_generator.cc:1796-2175.  It imports `math` for
nothing (C174), so what follows is about the program with that line removed.
-/

namespace Thrift.Emit

/-! ## Flags and addresses -/

/-- The flags with their defaults, and the arguments after them,
t_go_generator.cc:1843-1863. -/
structure Flags where
  host : Bytes := ascii "localhost"
  port : Int := 9090
  protocol : Bytes := ascii "binary"
  url : Bytes := []
  framed : Bool := false
  http : Bool := false
  help : Bool := false
  args : List Bytes

/-- What is used of a `url.URL`. -/
structure Url where
  scheme : Bytes
  host : Bytes

/-- What a connection is made to: by HTTP, or by a socket. -/
inductive Dest where
  | http (url : Bytes)
  | tcp (addr : Bytes) (framed : Bool)
  deriving DecidableEq

/-- Everything outside: `url.Parse`, whether a transport can be made
(`net.ResolveTCPAddr`, or the GET request that `NewTHttpClient` sends) and opened,
what `strconv.ParseFloat` makes of a text, what structs and containers are read
from it as simple JSON. -/
structure Outside where
  parseUrl : Bytes → Option Url
  make : Dest → Bool
  opens : Dest → Bool
  float : Bytes → Option F64
  json : TTy → Bytes → Option Dyn

/-- `fmt.Sprint(host, ":", port)`. -/
def hostPort (host : Bytes) (port : Int) : Bytes := host ++ ascii ":" ++ ascii (toString port)

/-- The address a transport is made for, t_go_generator.cc:1868-1903; nothing if a URL
does not parse.  The URL parsed at L1869 is a new variable of the block, the one
used at L1890 has never been assigned: its text is empty. -/
def dest (E : Outside) (f : Flags) : Option Dest :=
  if f.url ≠ [] then
    match E.parseUrl f.url with
    | none => none
    | some u =>
      if u.scheme = [] ∨ u.scheme = ascii "http" then some (.http [])
      else some (.tcp (hostPort u.host f.port) f.framed)
  else if f.http then
    match E.parseUrl (ascii "http://" ++ hostPort f.host f.port) with
    | none => none
    | some _ => some (.http [])
  else some (.tcp (hostPort f.host f.port) f.framed)

/-! ## Arguments -/

/-- The Go type of `argvalue…`, t_go_generator.cc:1959-2079: that of the conversion
or of the function that made it. -/
def argValueTy (t : TTy) : GoTy :=
  match t.behind with
  | .string | .binary => .string
  | .bool => .bool
  | .byte | .i16 => .byte
  | .i32 => .int32
  | .i64 => .int64
  | .double => .float64
  | .struct n => .ptr (publicize n)
  | _ => goType t

/-- Is the constructor used for a struct declared?  It is called after the
declared type, t_go_generator.cc:2027, 2042; a typedef has none. -/
def argConstructor (t : TTy) : Bool :=
  match t with
  | .typedef _ t => match t.behind with
    | .struct _ => false
    | _ => true
  | _ => true

/-- What Go has to accept about an argument: the conversion to a typedef and the
argument of the call, t_go_generator.cc:2095-2101, 2104-2143. -/
def argChecks (t : TTy) : List Check :=
  if t.isTypedef then [.convert (argValueTy t) (goType t), .assign (goType t) (goType t)]
  else [.assign (argValueTy t) (goType t)]

/-- The number passed for an integer or enum argument; nothing if the program shows
its usage instead, t_go_generator.cc:1959-2011. -/
def argNumber (t : TTy) (s : Bytes) : Option Int :=
  let (v, err) := parseInt s
  if err then none
  else match t.behind with
    | .byte | .i16 => some (v.setWidth 8).toNat
    | .i32 => some (v.setWidth 32).toInt
    | _ => some v.toInt

/-- The value passed for an argument, t_go_generator.cc:1959-2079. -/
def argValue (E : Outside) (t : TTy) (s : Bytes) : Option Dyn :=
  match t.behind with
  | .string | .binary => some (.string s)
  | .bool => some (.bool (s = ascii "true"))
  | .double => (E.float s).map .float64
  | .byte => (argNumber t s).map fun n => .byte (BitVec.ofInt 8 n)
  | .i16 => (argNumber t s).map fun n => .int16 (BitVec.ofInt 16 n)
  | .i32 => (argNumber t s).map fun n => .int32 (BitVec.ofInt 32 n)
  | .i64 | .enum _ => (argNumber t s).map fun n => .int64 (BitVec.ofInt 64 n)
  | _ => E.json t s

/-- A declared argument. -/
structure ArgDef where
  id : Int
  name : Bytes
  ty : TTy

/-- The value passed for a container, when `v` was read for it,
t_go_generator.cc:2073-2079: it is read with the method `ReadField` of the position,
that belongs to the argument of that id (t_go_generator.cc:1249), into an argument
struct of its own, and taken from the field called after the name; nothing if Go
knows no such method or field. -/
def containerArg (args : List ArgDef) (i : Nat) (v : Dyn) : Option Dyn :=
  match args[i]?, args.find? (fun b => b.id = (i : Int) + 1) with
  | some a, some b =>
    if publicize a.name ∈ args.map (fun x => fieldName x.name) then
      some (if fieldName b.name = publicize a.name then v else .nil)
    else none
  | _, _ => none

/-! ## The program -/

/-- A function as the program knows it. -/
structure Command where
  name : Bytes
  args : List TTy

/-- What a run comes to: the exit status, what it connected to, and the call made. -/
structure Outcome where
  exit : Nat
  opened : Option Dest := none
  called : Option (Bytes × List Dyn) := none

/-- The protocols known, t_go_generator.cc:1913-1926. -/
def knownProtocols : List Bytes :=
  [ascii "compact", ascii "simplejson", ascii "json", ascii "binary", []]

/-- The arguments of a call, all or nothing. -/
def argValues (E : Outside) : List TTy → List Bytes → Option (List Dyn)
  | [], _ => some []
  | _ :: _, [] => none
  | t :: ts, s :: ss =>
    match argValue E t s, argValues E ts ss with
    | some v, some vs => some (v :: vs)
    | _, _ => none

/-- The `switch` over the function, t_go_generator.cc:1939-2157, when connected to
`d`.  `Usage` ends the program with status 0 (L1839); the call prints whatever it
returns. -/
def runCommand (E : Outside) (cs : List Command) (d : Dest) (cmd : Bytes) (args : List Bytes) : Outcome :=
  match cs.find? fun c => c.name = cmd with
  | some c =>
    if args.length ≠ c.args.length then ⟨0, some d, none⟩
    else match argValues E c.args args with
      | none => ⟨0, some d, none⟩
      | some vs => ⟨0, some d, some (c.name, vs)⟩
  | none => ⟨0, some d, none⟩

/-- `main`, t_go_generator.cc:1841-2157. -/
def runRemote (E : Outside) (cs : List Command) (f : Flags) : Outcome :=
  match f.args with
  | [] => ⟨0, none, none⟩
  | cmd :: args =>
    if f.help then ⟨0, none, none⟩
    else match dest E f with
      | none => ⟨0, none, none⟩
      | some d =>
        if !E.make d then ⟨1, none, none⟩
        else if f.protocol ∉ knownProtocols then ⟨0, none, none⟩
        else if !E.opens d then ⟨1, none, none⟩
        else runCommand E cs d cmd args

/-- The functions the program offers, for a service with its parents in front,
t_go_generator.cc:1798, 1946: those declared in the service itself. -/
def commands (chain : List (List Command)) : List Command := chain.getLast?.getD []

end Thrift.Emit
