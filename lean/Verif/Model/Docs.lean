import Verif.Model.Package
/-!
# Comments, constants and directories that the generator prints

Documentation (t_go_generator.cc:2988-3066), names of constants
(t_go_generator.cc:654-669), and the directories of packages
(t_go_generator.cc:422-456).

The function that prints a comment, `generate_docstring_comment`, belongs to the base
class of the generators, which is not part of the repository.  What it prints is seen
in tests/generation/golden/gen-go/simple/ContainerOfEnumsTestService.go:24-27,
57-60: the text line by line, each behind the indentation and the prefix.
-/

namespace Thrift.Emit

/-! ## Documentation -/

/-- The parts of a text between its line ends. -/
def splitLines : Bytes → List Bytes
  | [] => [[]]
  | c :: r => if c = 10 then [] :: splitLines r else match splitLines r with
    | [] => [[c]]
    | l :: ls => (c :: l) :: ls

/-- The lines of a text: nothing behind the last line end is no line. -/
def docLines (t : Bytes) : List Bytes :=
  if (splitLines t).getLast? = some [] then (splitLines t).dropLast else splitLines t

/-- A comment as printed by the base class. -/
def docComment (ind pre text : Bytes) : Bytes :=
  ind ++ ascii "/**\n" ++ ((docLines text).flatMap fun l => ind ++ pre ++ l ++ [10]) ++ ind ++ ascii " */\n"

/-- The comment for typedefs, enums and services, t_go_generator.cc:3057-3066. -/
def genericDoc (ind : Bytes) (doc : Option Bytes) : Bytes :=
  match doc with
  | none => []
  | some d => docComment ind (ascii " *") d

/-- The text about the members, t_go_generator.cc:3025-3042. -/
def memberDocs (ms : List (Bytes × Option Bytes)) : Bytes :=
  ms.flatMap fun m => ascii " - " ++ fieldName m.1 ++ match m.2 with
    | some d => ascii ": " ++ d
    | none => [10]

/-- The comment for structs and functions, t_go_generator.cc:3010-3052. -/
def structDoc (ind sub : Bytes) (doc : Option Bytes) (ms : List (Bytes × Option Bytes)) : Bytes :=
  if doc = none ∧ ms = [] then [] else
    docComment ind (ascii " * ") (doc.getD [] ++
      if ms = [] then [] else (if doc.isSome then [10] else []) ++ sub ++ ascii ":\n" ++ memberDocs ms)

/-! ## Constants -/

/-- The Go name of a constant, t_go_generator.cc:656-657. -/
def constName (type name : Bytes) : Bytes := publicize type ++ [95] ++ publicize name

/-! ## Directories -/

/-- The loop that makes the directories of a package, t_go_generator.cc:427-447: the
directories made, the last of them, and the name of the package. -/
def packageLoop (dir name module : Bytes) : List Bytes × Bytes × Bytes :=
  if module = [] then ([dir], dir, name)
  else if 46 ∈ module then
    let r := packageLoop (dir ++ [47] ++ module.takeWhile (· ≠ 46)) name (module.dropWhile (· ≠ 46)).tail
    (dir :: r.1, r.2)
  else ([dir, dir ++ [47] ++ module], dir ++ [47] ++ module, module)
termination_by module.length
decreasing_by
  have := (List.dropWhile_sublist (fun x => decide (x ≠ 46)) (l := module)).length_le
  have : 0 < module.length := List.length_pos_iff.2 (by assumption)
  simp only [List.length_tail]
  omega

/-- The directories made for a module. -/
def packageDirs (out module : Bytes) : List Bytes := (packageLoop out [] module).1

/-- Where the files of a module are put, t_go_generator.cc:455-456. -/
def packageDir (out module : Bytes) : Bytes := (packageLoop out [] module).2.1

/-- The name in the package clause, t_go_generator.cc:440, 525-528. -/
def packageName (module : Bytes) : Bytes := (packageLoop [] [] module).2.2

/-- The path by which a file imports the module of another file,
t_go_generator.cc:491, 1413. -/
def importPath (module : Bytes) : Bytes := module

/-- The path by which the command line program imports the module of its service,
t_go_generator.cc:1803-1808, 1822. -/
def remoteImportPath (module : Bytes) : Bytes := slashed module

end Thrift.Emit
