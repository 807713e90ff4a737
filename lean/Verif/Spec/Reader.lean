import Verif.Spec.Stream
/-!
# Behaviour of underlying readers

What `io.Reader` allows a `Read` to do, the data that arrives when a reader is
asked again and again, and a reader with an explicit list of chunks.  Nothing
here is taken from the code.
-/

namespace Thrift

/-- The contract of `io.Reader`: `Read` returns, with at most as many bytes as
asked for and any error.  It may return bytes together with an error, and no
bytes without an error. -/
def LegalReader (T : Transport σ) : Prop :=
  ∀ n s, ∃ bs e s', T.read n s = (.ok (bs, e), s') ∧ bs.length ≤ n

/-- A reader that never answers a non-empty request with no bytes and no error
(`io.Reader` discourages it). -/
def NeverIdle (T : Transport σ) : Prop :=
  ∀ n s s', 0 < n → T.read n s ≠ (.ok ([], none), s')

/-- `Arrived T n s bs e s'`: somebody who wants `n` bytes and asks for what is
still missing has, after some `Read` calls that all brought data, the bytes
`bs`; `e` is the error of the last of these calls. -/
inductive Arrived (T : Transport σ) (n : Nat) (s : σ) : Bytes → GoErr → σ → Prop
  | start : Arrived T n s [] none s
  | more {bs e s' c e' s''} : Arrived T n s bs e s' → bs.length < n →
      T.read (n - bs.length) s' = (.ok (c, e'), s'') → c ≠ [] → Arrived T n s (bs ++ c) e' s''

/-- A stream that arrives in the given chunks; a `Read` never crosses the end of
a chunk. -/
def chunked : Transport (List Bytes) where
  read n cs :=
    match cs with
    | [] => (.ok ([], if n = 0 then none else some endOfStream), [])
    | c :: r =>
      if c.length ≤ n then (.ok (c, none), r) else (.ok (c.take n, none), c.drop n :: r)
  write _ cs := (.ok (0, some endOfStream), cs)
  flush cs := (.ok (some endOfStream), cs)

/-- No chunk is empty. -/
def NonEmptyChunks (cs : List Bytes) : Prop := ∀ c ∈ cs, c ≠ []

end Thrift
