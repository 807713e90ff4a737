import Verif.Model.Docs
/-!
# Interfaces and clients of services, and the names of types

What is printed for a service that extends another (t_go_generator.cc:1485-1621,
2189-2294), for the methods of interfaces and clients (t_go_generator.cc:1508-1522,
1624-1635, 3127-3164), and where a type of the IDL is mentioned
(t_go_generator.cc:3257-3315).
-/

namespace Thrift.Emit

/-- `type_name` of a service, t_go_generator.cc:3190-3192. -/
def serviceText (module name : Bytes) : Bytes := module ++ [46] ++ name

/-- The text up to the last dot, with the dot, t_go_generator.cc:1494-1497. -/
def uptoDot (t : Bytes) : Bytes := (t.reverse.dropWhile (· ≠ 46)).reverse
/-- The text behind the last dot. -/
def behindDot (t : Bytes) : Bytes := (t.reverse.takeWhile (· ≠ 46)).reverse

/-- A mention of what belongs to the parent: `pre` and `suf` are put around its name,
t_go_generator.cc:1496-1500, 1540-1546, 2197-2203. -/
def parentRef (pre suf module name : Bytes) : Bytes :=
  let t := serviceText module name
  if 46 ∈ t then uptoDot t ++ pre ++ publicize (behindDot t) ++ suf else pre ++ publicize t ++ suf

/-- The interface, t_go_generator.cc:1497. -/
def parentInterface := parentRef (ascii "I") []
/-- The client, L1541. -/
def parentClient := parentRef [] (ascii "Client")
/-- Its constructors, L1542, 1578, 1606. -/
def parentClientFactory := parentRef (ascii "New") (ascii "ClientFactory")
def parentClientProtocol := parentRef (ascii "New") (ascii "ClientProtocol")
/-- The processor, L2198. -/
def parentProcessor := parentRef [] (ascii "Processor")
/-- Its constructor, L2199. -/
def parentProcessorNew := parentRef (ascii "New") (ascii "Processor")

/-- All of them that stand where a type or a function is expected: in the interface L1508,
in the struct of the client L1554-1556, in its constructors L1576-1578, 1604-1606, in the
struct of the processor L2260 and in its constructor L2276. -/
def parentRefs (module name : Bytes) : List Bytes :=
  [parentInterface module name, parentClient module name, parentClientFactory module name, parentClientProtocol module name,
    parentProcessor module name, parentProcessorNew module name]

/-- The key in the literal of a client, t_go_generator.cc:1576-1578, 1604-1606. -/
def clientKey (module name : Bytes) : Bytes := parentClient module name

/-- What the file of a service declares of it, t_go_generator.cc:1488-1489, 1508,
1551-1553, 1572, 1598, 2191, 2211, 2228. -/
def serviceNames (name : Bytes) : List Bytes :=
  [ascii "I" ++ publicize name, publicize name ++ ascii "Client", ascii "New" ++ publicize name ++ ascii "ClientFactory",
    ascii "New" ++ publicize name ++ ascii "ClientProtocol", publicize name ++ ascii "Processor", ascii "New" ++ publicize name ++ ascii "Processor"]

/-- The fields of a client, t_go_generator.cc:1554-1566; of an embedded type `*q.T` the
name is `T`. -/
def clientFields (parent : Option Bytes) : List Bytes :=
  match parent with
  | none => [ascii "Transport", ascii "ProtocolFactory", ascii "InputProtocol", ascii "OutputProtocol", ascii "SeqId"]
  | some p => [publicize p ++ ascii "Client"]

/-- What a selector of a client finds, searching from the client to its parents: `true` for
a field, `false` for a method; the clients are given by their parents and functions. -/
def finds : List (Option Bytes × List Bytes) → Bytes → Option Bool
  | [], _ => none
  | l :: ls, n => if n ∈ clientFields l.1 then some true else if n ∈ clientMethods l.2 then some false else finds ls n

/-- The fields that the methods of a client use, t_go_generator.cc:1679-1685, 1728-1733. -/
def usedFields : List Bytes := [ascii "OutputProtocol", ascii "ProtocolFactory", ascii "Transport", ascii "SeqId", ascii "InputProtocol"]

/-! ## Types -/

/-- Where a type is declared, and under which name: nothing for base types and
containers, which need no declaration. -/
inductive Origin where
  | builtin (text : Bytes)
  | declared (module name : Bytes)
  deriving DecidableEq

/-- `type_to_go_type`, t_go_generator.cc:3257-3315, without the star of structs: for
declared types the name alone. -/
def goTypeText : Origin → Bytes
  | .builtin t => t
  | .declared _ name => publicize name

/-! ## Methods -/

/-- A method: its public name, the types of its parameters and of its results. -/
structure Signature where
  name : Bytes
  params : List Bytes
  results : List Bytes
  deriving DecidableEq

/-- A function of the IDL: its name, the types of its arguments, of its result and of its
exceptions, each by a text that tells it from all others (with the package, if it is not
a type of Go). -/
structure Func where
  name : Bytes
  args : List Bytes
  ret : Option Bytes
  excs : List Bytes

/-- The method of interface and client for a function, t_go_generator.cc:1519-1520, 1635,
3127-3164. -/
def Func.signature (f : Func) : Signature :=
  ⟨publicize f.name, f.args, f.ret.toList ++ f.excs ++ [ascii "error"]⟩

/-- `Send…`, t_go_generator.cc:1673, 3112-3120. -/
def Func.send (f : Func) : Signature := ⟨ascii "Send" ++ publicize f.name, f.args, [ascii "error"]⟩
/-- `Recv…`, t_go_generator.cc:1707-1730. -/
def Func.recv (f : Func) : Signature := ⟨ascii "Recv" ++ publicize f.name, [], f.ret.toList ++ f.excs ++ [ascii "error"]⟩

/-- The methods that an interface asks for: its own and those of the embedded one; the
service comes first, then its parent, and so on, t_go_generator.cc:1508-1522. -/
def wanted (chain : List (List Func)) : List Signature := chain.flatMap fun fs => fs.map Func.signature

/-- The methods declared for one client. -/
def declared (fs : List Func) : List Signature := fs.flatMap fun f => [f.signature, f.send, f.recv]

/-- The method that a client has under a name: its own, or else that of the embedded
client, t_go_generator.cc:1551-1557. -/
def method : List (List Func) → Bytes → Option Signature
  | [], _ => none
  | fs :: chain, n => ((declared fs).find? (·.name = n)).or (method chain n)

end Thrift.Emit
