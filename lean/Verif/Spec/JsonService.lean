import Verif.Spec.JsonNamed
import Verif.Spec.Service
import Verif.Model.Json
/-!
# Conversations over the JSON protocols

A JSON protocol object reads through a buffer of its own, so a connection is
described by what arrives at each object: the messages, one with each read, and
then nothing, while the connection stays open.
-/

namespace Thrift

/-- A connection that delivers one message with each read; a read waits when there
is none. -/
def messages : Transport (List Bytes) where
  read n s := match s with
    | [] => (.stuck, [])
    | d :: r => (.ok (d.take n, none), r)
  write bs s := (.ok (bs.length, none), s)
  flush s := (.ok none, s)

/-- A message has arrived for the object. -/
def Json.arrive (j : Json (List Bytes)) (doc : Bytes) : Json (List Bytes) := { j with t := j.t ++ [doc] }

/-- How a conversation ended: all calls were made, the server gave up after a
handler's error, or a message was not fit for the connection. -/
inductive Ending
  | finished
  | refused
  | unfit (doc : Bytes)
  deriving DecidableEq

/-- Calls one after the other: what the client writes arrives at the server, which
handles it and goes on if that succeeded (tsimple_server.go:149-160); what the
server writes arrives at the client.  Messages that are not `ready` end the
conversation; `ready` also says whether it is a request or a reply, or an
exception.  The results of the calls; none if one side panics, waits or does not
send its message. -/
def converse (p : Proto (Json (List Bytes))) (S : Schema) (L : FloatLib) (mem : List Nat → Nat) (msd : Int) (fuel : Nat) (sv : Service η)
    (ready : Bool → Bytes → Bool) : List (Method × Attrs) → Client (Json (List Bytes)) → Server (Json (List Bytes)) (Json (List Bytes)) η →
    Option (List (Option Attrs × GoErr) × Ending)
  | [], _, _ => some ([], .finished)
  | (m, a) :: cs, c, s =>
    match (Client.send p S fuel m a).run duplex c ([], []) with
    | (.ok (none, c), (_, req)) =>
      if ready true req = false then some ([], .unfit req)
      else match (process p p S L mem msd fuel sv).run duplex { s with iprot := s.iprot.arrive req } ([], []) with
        | (.ok ((ok, _), s), (_, rep)) =>
          if ready ok rep = false then some ([], .unfit rep)
          else match (Client.recv p S L mem msd fuel m).run duplex { c with input := c.input.map (·.arrive rep) } ([], []) with
            | (.ok (res, c), _) =>
              if ok then (converse p S L mem msd fuel sv ready cs c s).map fun x => (res :: x.1, x.2)
              else some ([res], .refused)
            | _ => none
        | _ => none
    | _ => none

/-- The document fits into the reader's buffer, and the struct of the message is not
empty. -/
def fitsReader (doc : Bytes) : Bool := doc.length ≤ 4096 && !(ascii "{}]").isSuffixOf doc

/-- A call that JSON can carry: a declared method with a result, arguments and
results that are `Fine` and whose strings are text, one outcome of the handler,
errors whose messages are text. -/
structure JsonSound {η : Type} (S : Schema) (sv : Service η) (m : Method) (a : Attrs) : Prop where
  known : sv.find m.name = some m
  name : JsonSpec.Utf8 m.name
  twoway : m.oneway = false
  args : Fine S (.struct m.args) ((S.structs m.args).object 0 a)
  text : JsonSpec.Legible ((S.structs m.args).object 0 a)
  result : ResultDef (S.structs m.result)
  fine : ∀ h as r h', sv.handle m h as = ((r, none), h') →
    Fine S (.struct m.result) ((S.structs m.result).object 0 r) ∧ OneOutcome S (S.structs m.result) r ∧
      JsonSpec.Legible ((S.structs m.result).object 0 r)
  message : ∀ h as r e h', sv.handle m h as = ((r, some e), h') → JsonSpec.Utf8 e.msg ∧ m.name.length + e.msg.length + 28 < 2 ^ 31

/-- What the results of a conversation say about the calls: they are answered in
order, all of them, or up to and including the first that the handler refused, or
up to one whose request, reply or exception is a message that is not fit. -/
inductive Conversed (L : JsonLib) (S : Schema) (sv : Service η) (ready : Bytes → Bool) : η → List (Method × Attrs) →
    List (Option Attrs × GoErr) → Ending → Prop
  | finished (h) : Conversed L S sv ready h [] [] .finished
  | answered {h h' m a a' r res cs rs e} (args : SameAttrs (S.structs m.args) a a') (run : sv.handle m h a' = ((r, none), h'))
      (ret : Returned (S.structs m.result) m r none res) (rest : Conversed L S sv ready h' cs rs e) :
      Conversed L S sv ready h ((m, a) :: cs) (res :: rs) e
  | refused {h h' m a a' r x res cs} (args : SameAttrs (S.structs m.args) a a') (run : sv.handle m h a' = ((r, some x), h'))
      (ret : Returned (S.structs m.result) m r (some x) res) : Conversed L S sv ready h ((m, a) :: cs) [res] .refused
  | unfit {h m a cs doc ty q fs} (doc_eq : doc = JsonSpec.message L m.name ty q (.struct fs)) (long : ready doc = false) :
      Conversed L S sv ready h ((m, a) :: cs) [] (.unfit doc)

end Thrift
