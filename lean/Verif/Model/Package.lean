import Verif.Model.Emit
import Verif.Model.Json
/-!
# The Go package that the generator prints

Which files there are, what they import and declare, and the rules by which Go
accepts them: the parts of `t_go_generator.cc` outside the bodies of `Read`,
`Write`, clients and processors.

The rules of Go used here are those of the language specification: imports stand
before all other declarations, an imported package is used, a package does not
import itself, the names declared by a package differ, the fields and methods of
a type differ, a selector of a type names one of its fields or methods.
-/

namespace Thrift.Emit

/-! ## Files -/

/-- What stands at the top level of a Go file: the import of a path, or a
declaration, by the packages that are mentioned in it. -/
inductive Top where
  | imp (path : Bytes)
  | decl (uses : List Bytes)
  deriving DecidableEq

/-- The name by which an imported package is known: what follows the last slash
of its path. -/
def baseName (path : Bytes) : Bytes := (path.reverse.takeWhile (· ≠ 47)).reverse

/-- The paths that a file imports. -/
def imported : List Top → List Bytes
  | [] => []
  | .imp p :: r => p :: imported r
  | .decl _ :: r => imported r

/-- The packages that a file mentions. -/
def mentioned : List Top → List Bytes
  | [] => []
  | .imp _ :: r => mentioned r
  | .decl u :: r => u ++ mentioned r

/-- Go's grammar of a file: no import behind a declaration. -/
def Grammatical : List Top → Prop
  | [] => True
  | .imp _ :: r => Grammatical r
  | .decl _ :: r => imported r = []

/-- A file is accepted as far as its imports go: they stand first, each is used,
and none is the package itself. -/
structure Accepted (own : Bytes) (f : List Top) : Prop where
  order : Grammatical f
  used : ∀ p ∈ imported f, baseName p ∈ mentioned f
  others : own ∉ imported f

/-- The declared types of the IDL, with typedefs, which the generated code keeps
apart from the types they name; exceptions are structs, t_go_generator.cc:3257-3315. -/
inductive TTy where
  | bool | byte | i16 | i32 | i64 | double | string | binary
  | enum (n : Bytes)
  | struct (n : Bytes)
  | list (e : TTy) | set (e : TTy) | map (k v : TTy)
  | typedef (n : Bytes) (t : TTy)
  deriving DecidableEq

/-- `get_true_type`: what a chain of typedefs stands for. -/
def TTy.behind : TTy → TTy
  | .typedef _ t => t.behind
  | t => t

/-- A function of a service: its name, its arguments with their ids and types. -/
structure Fn where
  name : Bytes
  args : List (I16 × Bytes × TTy)

/-- A service: its name, its functions, and the service it extends, by the module
of the program that declares it and its name. -/
structure Svc where
  name : Bytes
  functions : List Fn
  parent : Option (Bytes × Bytes)

/-- An IDL file: its Go module (the namespace, or the name of the program,
t_go_generator.cc:218-226), the modules of the files it includes, its typedefs,
enums, constants (by their types), structs and exceptions, and services. -/
structure Program where
  module : Bytes
  includes : List Bytes
  typedefs : List (Bytes × TTy)
  enums : List Enum
  consts : List TTy
  structs : List Bytes
  services : List Svc

/-- Does the Go type mention the library (`thrift.TMap`)?
t_go_generator.cc:3257-3315: a typedef is printed by its name. -/
def TTy.mentions : TTy → List Bytes
  | .list _ | .set _ | .map _ _ => [ascii "thrift"]
  | _ => []

/-- The standard imports and the function behind them,
t_go_generator.cc:530-551. -/
def goImports : List Top :=
  [.imp (ascii "fmt"), .imp (ascii "math"), .imp (ascii "thrift"), .decl [ascii "math"]]

/-- A struct with its methods: the type embeds `thrift.TStruct`, `String` calls
`fmt.Sprintf`, t_go_generator.cc:868-870, 981-988. -/
def structTop : Top := .decl [ascii "thrift", ascii "fmt"]

/-- The file `ttypes.go`, t_go_generator.cc:471-477, 485-498, 570-582, 590-648,
654-669, 560-565.  A constant of a base type or enum is a literal; any other is a
variable of its type, built with the library's constructors or a struct's
(L717-815) in the function at the end.  Simplification: of an enum, a typedef and
a constant only the mentioned packages are kept. -/
def typesFile (p : Program) : List Top :=
  goImports ++ p.includes.map .imp ++
    (p.typedefs.map fun t => .decl t.2.mentions) ++
    (p.enums.map fun _ => .decl []) ++
    (p.consts.map fun t => .decl t.mentions) ++
    (p.structs.map fun _ => structTop) ++
    [.decl (p.consts.flatMap fun t => t.behind.mentions)]

/-- The file of a service, t_go_generator.cc:1402-1430: interface, client and
processor mention the library and the parent's package (L1494-1505, L1536-1548,
L1556, L2192-2205), and every function adds two structs (L1438-1479).
Simplification: they are one declaration here. -/
def serviceFile (s : Svc) : List Top :=
  goImports ++ (s.parent.map fun q => Top.imp q.1).toList ++
    .decl (ascii "thrift" :: (s.parent.map (·.1)).toList) ::
      s.functions.flatMap fun _ => [structTop, structTop]

/-- The standard packages imported by the program that calls a service from the
command line, t_go_generator.cc:1813-1821. -/
def remoteImports : List Bytes :=
  [ascii "flag", ascii "fmt", ascii "math", ascii "net", ascii "net/url", ascii "os",
    ascii "strconv", ascii "thrift"]

/-- Are characters converted to a number for this argument?
t_go_generator.cc:1954-2028: for enums and numbers. -/
def TTy.parsed (t : TTy) : Bool :=
  match t.behind with
  | .enum _ | .byte | .i16 | .i32 | .i64 | .double => true
  | _ => false

/-- The path of the module of a program, t_go_generator.cc:1804-1808. -/
def slashed (m : Bytes) : Bytes := m.map fun c => if c = 46 then 47 else c

/-- The file of the command line program, t_go_generator.cc:1796-2160: `Usage`
and `main`, up to the switch, mention the standard packages but for `math` and
`strconv`; the package of the service is mentioned by its name, L1925; `strconv`
where an argument is converted. -/
def remoteFile (module : Bytes) (s : Svc) : List Top :=
  remoteImports.map .imp ++ [.imp (slashed module),
    .decl [ascii "fmt", ascii "flag", ascii "os"],
    .decl ([ascii "flag", ascii "url", ascii "thrift", ascii "fmt", ascii "net", ascii "os",
        baseName (slashed module)] ++
      s.functions.flatMap fun f => f.args.flatMap fun a =>
        if a.2.2.parsed then [ascii "strconv"] else [])]

/-! ## Names declared by a package -/

/-- The structs that a function of a service brings into the package, each with
its constructor, t_go_generator.cc:866-868, 925, 1438-1479. -/
def fnNames (f : Bytes) : List Bytes :=
  [declaredArgs f, ascii "New" ++ declaredArgs f, declaredResult f, ascii "New" ++ declaredResult f]

/-- Those of the functions of all services of a program: the files of the
services belong to one package, t_go_generator.cc:1402-1408. -/
def helperNames (services : List (List Bytes)) : List Bytes :=
  services.flatMap fun fs => fs.flatMap fnNames

/-- The name that the constructor of a processor uses for the type that answers
the calls, t_go_generator.cc:2191, 2207, 2236. -/
def enteredName (service f : Bytes) : Bytes :=
  privatize (publicize service) ++ ascii "Processor" ++ publicize f

/-- The name under which that type is declared, t_go_generator.cc:2309. -/
def handlerName (service f : Bytes) : Bytes :=
  privatize service ++ ascii "Processor" ++ publicize f

/-! ## Fields and methods of a struct -/

/-- The methods that every struct has, t_go_generator.cc:1154, 1270, 971-1035. -/
def fixedMethods : List Bytes :=
  [ascii "Read", ascii "Write", ascii "TStructName", ascii "ThriftName", ascii "String",
    ascii "CompareTo", ascii "AttributeByFieldId", ascii "TStructFields"]

/-- The text of an id. -/
def idText (i : I16) : Bytes := JsonProtocol.formatInt i.toInt

/-- The methods of a struct for its members, given by id, name, and whether there
is an `IsSet` (optional members and enums, L1057): t_go_generator.cc:1058-1061,
1245-1254, 1340-1341, 1389-1391. -/
def memberMethods (m : I16 × Bytes × Bool) : List Bytes :=
  [ascii "ReadField" ++ idText m.1, ascii "ReadField" ++ publicize m.2.1,
    ascii "WriteField" ++ idText m.1, ascii "WriteField" ++ publicize m.2.1] ++
    if m.2.2 then [ascii "IsSet" ++ fieldName m.2.1] else []

/-- The fields and the methods of the Go type of a struct,
t_go_generator.cc:868-911: the embedded `thrift.TStruct` is a field called
`TStruct`. -/
def selectors (ms : List (I16 × Bytes × Bool)) : List Bytes :=
  ascii "TStruct" :: ms.map (fun m => fieldName m.2.1) ++ fixedMethods ++ ms.flatMap memberMethods

end Thrift.Emit
