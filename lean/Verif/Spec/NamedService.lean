import Verif.Spec.JsonService
import Verif.Model.AppException
/-!
# Conversations over the simple JSON protocol

Messages of the simple JSON protocol have no version number, and their structs are
objects with the names of the members.
-/

namespace Thrift
namespace JsonSpec

/-- The document for a message: an array of its name, type and sequence number and
the struct. -/
def nmessage (L : JsonLib) (name : Bytes) (type : Byte) (seq : I32) (body : Bytes) : Bytes :=
  91 :: (L.quote name ++ 44 :: (decimal type.toNat ++ 44 :: (decimal seq.toInt ++ 44 :: (body ++ [93]))))

/-- The document for an application exception. -/
def excText (L : JsonLib) (x : AppExc) : Bytes :=
  123 :: ((if x.message.length > 0 then L.quote (ascii "message") ++ 58 :: (L.quote x.message ++ [44]) else []) ++
    (L.quote (ascii "type") ++ 58 :: (decimal x.type.toInt ++ [125])))

end JsonSpec

/-- The struct of the message has members, and the value of the last one is more than
a digit. -/
def endsWell (doc : Bytes) : Bool :=
  match doc.reverse with
  | 93 :: 125 :: 123 :: _ => false
  | 93 :: 125 :: d :: 58 :: _ => !(48 ≤ d.toNat && d.toNat ≤ 57)
  | _ => true

/-- The message fits into the reader's buffer, and a request or reply does not end
with an empty struct or a value of one digit. -/
def fitsNamed (plain : Bool) (doc : Bytes) : Bool := doc.length ≤ 4096 && (!plain || endsWell doc)

/-- What the results of a conversation say about the calls: they are answered in
order, all of them, or up to and including the first that the handler refused, for
which the client has `Refused`, or up to one whose request, reply or exception is
a message that is not fit. -/
inductive NConversed (L : JsonLib) (S : Schema) (sv : Service η) (ready : Bool → Bytes → Bool)
    (Refused : Method → Attrs → Err → Option Attrs × GoErr → Prop) : η → List (Method × Attrs) → List (Option Attrs × GoErr) → Ending → Prop
  | finished (h) : NConversed L S sv ready Refused h [] [] .finished
  | answered {h h' m a a' r res cs rs e} (args : SameAttrs (S.structs m.args) a a') (run : sv.handle m h a' = ((r, none), h'))
      (ret : Returned (S.structs m.result) m r none res) (rest : NConversed L S sv ready Refused h' cs rs e) :
      NConversed L S sv ready Refused h ((m, a) :: cs) (res :: rs) e
  | refused {h h' m a a' r x res cs} (args : SameAttrs (S.structs m.args) a a') (run : sv.handle m h a' = ((r, some x), h'))
      (ret : Refused m r x res) : NConversed L S sv ready Refused h ((m, a) :: cs) [res] .refused
  | request {h m a cs q fs} (unfit : ready true (JsonSpec.nmessage L m.name 1 q (JsonSpec.ntext L S (.struct fs) (.struct m.args))) = false) :
      NConversed L S sv ready Refused h ((m, a) :: cs) []
        (.unfit (JsonSpec.nmessage L m.name 1 q (JsonSpec.ntext L S (.struct fs) (.struct m.args))))
  | reply {h h' m a a' r cs q fs} (args : SameAttrs (S.structs m.args) a a') (run : sv.handle m h a' = ((r, none), h'))
      (unfit : ready true (JsonSpec.nmessage L m.name 2 q (JsonSpec.ntext L S (.struct fs) (.struct m.result))) = false) :
      NConversed L S sv ready Refused h ((m, a) :: cs) []
        (.unfit (JsonSpec.nmessage L m.name 2 q (JsonSpec.ntext L S (.struct fs) (.struct m.result))))
  | exception {h h' m a a' r x y cs q} (args : SameAttrs (S.structs m.args) a a') (run : sv.handle m h a' = ((r, some x), h'))
      (unfit : ready false (JsonSpec.nmessage L m.name 3 q (JsonSpec.excText L y)) = false) :
      NConversed L S sv ready Refused h ((m, a) :: cs) [] (.unfit (JsonSpec.nmessage L m.name 3 q (JsonSpec.excText L y)))

end Thrift
