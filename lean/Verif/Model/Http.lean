import Verif.Model.Transport
/-!
# HTTP client transport

`thttp_client.go`.
-/

namespace Thrift

/-- What `net/http` and everything behind it do; `ρ` are the responses and `ν` is the
state of everything outside.  Nothing is assumed about the answers, except that a
response has a body, as `net/http` promises.

`post` gets the content of the request buffer and answers how many of its bytes were
taken out (`http.Post` reads the request from the buffer as it is sent) and either
an error or a status with a response.  -/
structure Web (ρ ν : Type) where
  get : ν → Except Err ρ × ν
  post : Bytes → ν → (Nat × Except Err (Nat × ρ)) × ν
  readBody : Nat → ρ → ν → (Bytes × GoErr) × ν
  closeBody : ρ → ν → GoErr × ν

/-- Fields of `THttpClient`, thttp_client.go:29-35: `response` and the content of
`requestBuffer`, both may be nil.  Simplifications: the URL is given with the `Web`
and parses; the timeouts are never used. -/
structure Http (ρ : Type) where
  response : Option ρ
  request : Option Bytes

namespace Http
variable (W : Web ρ ν)

/-- `NewTHttpClient`, thttp_client.go:70-80. -/
def newGet (n : ν) : Except Err (Http ρ) × ν :=
  match W.get n with
  | (.error e, n) => (.error e, n)
  | (.ok r, n) => (.ok ⟨some r, none⟩, n)

/-- `NewTHttpPostClient`, thttp_client.go:82-89. -/
def newPost : Http ρ := ⟨none, some []⟩

/-- `Open`, thttp_client.go:91-94. -/
def opened (_ : Http ρ) : GoErr := none

/-- `IsOpen`, `Peek`, thttp_client.go:96-102. -/
def isOpen (s : Http ρ) : Bool := s.response.isSome || s.request.isSome

/-- `Close`, thttp_client.go:104-115. -/
def close (s : Http ρ) (n : ν) : GoErr × Http ρ × ν :=
  match s.response with
  | some r => ((W.closeBody r n).1, { s with response := none }, (W.closeBody r n).2)
  | none => (none, { s with request := none }, n)

/-- `Read`, thttp_client.go:117-123. -/
def read (k : Nat) (s : Http ρ) (n : ν) : (Bytes × GoErr) × ν :=
  match s.response with
  | none => (([], some (newTTransportException NOT_OPEN (ascii "Response buffer is empty, no request."))), n)
  | some r => (((W.readBody k r n).1.1, transportFromOsError (W.readBody k r n).1.2), (W.readBody k r n).2)

/-- `Write`, thttp_client.go:129-132.  The method `Write` of a nil `bytes.Buffer`
panics. -/
def write (bs : Bytes) (s : Http ρ) : Res (Nat × GoErr) × Http ρ :=
  match s.request with
  | none => (.panic, s)
  | some b => (.ok (bs.length, none), { s with request := some (b ++ bs) })

/-- The error for another status than 200, thttp_client.go:141. -/
def statusErr (status : Nat) : Err :=
  newTTransportException UNKNOWN_TRANSPORT_EXCEPTION (ascii "HTTP Response code: " ++ ascii (toString status))

/-- `Flush`, thttp_client.go:134-145.  `http.Post` asks the nil buffer for its length,
which panics. -/
def flush (s : Http ρ) (n : ν) : Res GoErr × Http ρ × ν :=
  match s.request with
  | none => (.panic, s, n)
  | some b =>
    match W.post b n with
    | ((taken, .error e), n) => (.ok (transportFromOsError (some e)), { s with request := some (b.drop taken) }, n)
    | ((taken, .ok (status, r)), n) =>
      if status ≠ 200 then (.ok (some (statusErr status)), { s with request := some (b.drop taken) }, n)
      else (.ok none, ⟨some r, some (b.drop taken)⟩, n)
end Http

/-- `THttpClient` as a transport. -/
def http (W : Web ρ ν) : Transport (Http ρ × ν) where
  read k s := (.ok (s.1.read W k s.2).1, (s.1, (s.1.read W k s.2).2))
  write bs s := ((s.1.write bs).1, ((s.1.write bs).2, s.2))
  flush s := ((s.1.flush W s.2).1, (s.1.flush W s.2).2)

end Thrift
