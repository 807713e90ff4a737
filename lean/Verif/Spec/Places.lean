import Verif.Model.Gen
/-!
# Where an error occurred
-/

namespace Thrift

/-- The text of the error begins with the place. -/
def Err.At (e : Err) (place : Bytes) : Prop := ∃ cause, e.msg = place ++ ascii " due to: " ++ cause

/-- The error tells that this struct or which field of it could not be written.  (The
mark after the last field is called STOP.) -/
def Err.TellsWritten (e : Err) (sd : StructDef) : Prop :=
  e.At (ascii "Unable to write struct " ++ sd.name) ∨ e.At (ascii "Unable to write field (STOP) in " ++ sd.name) ∨
    ∃ m ∈ sd.members, e.At (ascii "Unable to write field (" ++ m.name ++ ascii ") in " ++ sd.name)

/-- The error tells that this struct or which field of it could not be read. -/
def Err.TellsRead (e : Err) (sd : StructDef) : Prop :=
  e.At (ascii "Unable to read struct " ++ sd.name) ∨
    ∃ name, e.At (ascii "Unable to read field (" ++ name ++ ascii ") in " ++ sd.name)

/-- The error tells which part of a value of this type could not be written: the struct,
or the beginning or end of the container, or a part of an element.  (Elements and
containers have no names.) -/
def Err.TellsPart (e : Err) (S : Schema) : Ty → Prop
  | .struct k => e.At (ascii "Unable to write struct " ++ (S.structs k).name)
  | .list t => e.At (ascii "Unable to write field () in list") ∨ e.TellsPart S t
  | .set t => e.At (ascii "Unable to write field () in set") ∨ e.TellsPart S t
  | .map k v => e.At (ascii "Unable to write field () in map") ∨ e.TellsPart S k ∨ e.TellsPart S v
  | _ => e.At (ascii "Unable to write field () in ")

/-- The types whose values are written in one call. -/
def Ty.Single : Ty → Prop
  | .struct _ | .list _ | .set _ | .map .. => False
  | _ => True

instance : DecidablePred Ty.Single := fun t => by cases t <;> (unfold Ty.Single; infer_instance)

/-- Whatever protocol state and transport it starts with, every error that the program
returns is one of these. -/
def Errs (m : P π α) (err : α → GoErr) (good : Err → Prop) : Prop :=
  ∀ (σ : Type) (T : Transport σ) (s : π) (t : σ) (a : α) (s' : π) (t' : σ) (e : Err),
    m.run T s t = (.ok (a, s'), t') → err a = some e → good e

end Thrift
