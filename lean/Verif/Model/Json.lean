import Verif.Model.Dyn
import Verif.Model.Protocol
/-!
# The JSON protocols

`tsimple_json_protocol.go`, `tjson_protocol.go`, with `bufio.Reader` and the
base64 coder of the standard library.

Writing goes through the transport of the program.  Reading uses plain `Read`
calls, which programs do not have, so the transport that is read from is kept in
the state of the protocol object.  An object is used for one direction only, as
in clients and servers (tsimple_server.go:141-142).

Simplification: the texts of errors are shortened to fixed phrases.
-/

namespace Thrift

/-- `_ParseContext`, tsimple_json_protocol.go:34-43. -/
inductive JCtx where
  | toplevel | listFirst | list | objectFirst | nextKey | nextValue
  deriving DecidableEq, Repr

/-- Fields of `TSimpleJSONProtocol`, tsimple_json_protocol.go:71-89: the two
context stacks (top first), the unread part of the `bufio.Reader`'s buffer, its
pending error, and the transport below it. -/
structure Json (τ : Type) where
  parse : List JCtx
  dump : List JCtx
  buf : Bytes
  err : GoErr
  t : τ
  deriving DecidableEq, Repr

/-- Parts of the Go library.  `quote` is `JsonQuote` (`json.Marshal`),
tsimple_json_protocol.go:159-163; `unquote` is `JsonUnquote`, L165-169, `none`
when it fails; `format` is `strconv.FormatFloat(v, 'g', -1, 64)`; `parse` is the
value given by `strconv.ParseFloat(s, 64)`.  Nothing is assumed about them here. -/
structure JsonLib where
  quote : Bytes → Bytes
  unquote : Bytes → Option Bytes
  format : F64 → Bytes
  parse : Bytes → F64

/-- What a JSON object works with: the transport that it reads from, the library,
the bytes that lie in the reader's buffer behind the unread ones (left over from
earlier reads; `ReadBool` may look at them), and the bound for loops. -/
structure JsonEnv (τ : Type) where
  T : Transport τ
  L : JsonLib
  stale : Json τ → Bytes
  fuel : Nat

namespace JsonProtocol

/-! ## Characters -/
def COMMA : Byte := 44
def COLON : Byte := 58
def LBRACE : Byte := 123
def RBRACE : Byte := 125
def LBRACKET : Byte := 91
def RBRACKET : Byte := 93
def QUOTE : Byte := 34
def BACKSLASH : Byte := 92
def NULL : Bytes := [110, 117, 108, 108]
def TRUE : Bytes := [116, 114, 117, 101]
def FALSE : Bytes := [102, 97, 108, 115, 101]
def NAN : Bytes := [78, 97, 78]
def INFINITY : Bytes := [73, 110, 102, 105, 110, 105, 116, 121]
def NEGATIVE_INFINITY : Bytes := [45, 73, 110, 102, 105, 110, 105, 116, 121]

/-- The white space that is skipped, tsimple_json_protocol.go:822. -/
def isWs (b : Byte) : Bool := b = 32 || b = 13 || b = 10 || b = 9

/-- A malformed document. -/
def invalid : Err := newTProtocolException INVALID_DATA (ascii "Invalid JSON")

/-! ## `strconv.FormatInt(v, 10)` -/

/-- Decimal digits of a number below `10 ^ fuel`. -/
def natDigits : (fuel : Nat) → Nat → Bytes
  | 0, _ => []
  | fuel + 1, n => if n < 10 then [BitVec.ofNat 8 (48 + n)] else natDigits fuel (n / 10) ++ [BitVec.ofNat 8 (48 + n % 10)]

/-- The text of a 64-bit integer. -/
def formatInt (v : Int) : Bytes := if v < 0 then 45 :: natDigits 20 v.natAbs else natDigits 20 v.natAbs

/-! ## base64, `base64.StdEncoding` -/

/-- The alphabet. -/
def b64char (n : Nat) : Byte :=
  BitVec.ofNat 8 (if n < 26 then 65 + n else if n < 52 then 97 + (n - 26) else if n < 62 then 48 + (n - 52)
    else if n = 62 then 43 else 47)

/-- The value of a character of the alphabet. -/
def b64value (b : Byte) : Option Nat :=
  let c := b.toNat
  if 65 ≤ c ∧ c ≤ 90 then some (c - 65)
  else if 97 ≤ c ∧ c ≤ 122 then some (c - 97 + 26)
  else if 48 ≤ c ∧ c ≤ 57 then some (c - 48 + 52)
  else if c = 43 then some 62
  else if c = 47 then some 63
  else none

/-- `Encode`. -/
def b64encode : Bytes → Bytes
  | a :: b :: c :: r =>
    b64char (a.toNat / 4) :: b64char (a.toNat % 4 * 16 + b.toNat / 16) :: b64char (b.toNat % 16 * 4 + c.toNat / 64) ::
      b64char (c.toNat % 64) :: b64encode r
  | [a, b] => [b64char (a.toNat / 4), b64char (a.toNat % 4 * 16 + b.toNat / 16), b64char (b.toNat % 16 * 4), 61]
  | [a] => [b64char (a.toNat / 4), b64char (a.toNat % 4 * 16), 61, 61]
  | [] => []

/-- `Decode` without line breaks: what was decoded, and whether the input was
good. -/
def b64quanta : Bytes → Bytes × Bool
  | [] => ([], true)
  | [x, y, 61, 61] =>
    match b64value x, b64value y with
    | some x, some y => ([BitVec.ofNat 8 (x * 4 + y / 16)], true)
    | _, _ => ([], false)
  | [x, y, z, 61] =>
    match b64value x, b64value y, b64value z with
    | some x, some y, some z => ([BitVec.ofNat 8 (x * 4 + y / 16), BitVec.ofNat 8 (y % 16 * 16 + z / 4)], true)
    | _, _, _ => ([], false)
  | x :: y :: z :: w :: r =>
    match b64value x, b64value y, b64value z, b64value w with
    | some x, some y, some z, some w =>
      let (out, ok) := b64quanta r
      (BitVec.ofNat 8 (x * 4 + y / 16) :: BitVec.ofNat 8 (y % 16 * 16 + z / 4) :: BitVec.ofNat 8 (z % 4 * 64 + w) :: out, ok)
    | _, _, _, _ => ([], false)
  | _ => ([], false)

/-- `Decode`: carriage returns and line feeds are ignored. -/
def b64decode (bs : Bytes) : Bytes × Bool := b64quanta (bs.filter fun b => !(b = 13 || b = 10))

variable {τ : Type}

/-! ## Writing -/

/-- The top of `dumpContext`; indexing an empty slice panics. -/
def dumpTop : P (Json τ) JCtx := fun s =>
  match s.dump with
  | [] => .panic
  | c :: _ => .ret (c, s)

/-- `p.writer.Write(bs)` with the error converted. -/
def put (bs : Bytes) : P (Json τ) GoErr := do
  let (_, e) ← P.write bs
  return protocolFromOsError e

/-- `OutputPreValue`, tsimple_json_protocol.go:549-564. -/
def outputPreValue : P (Json τ) GoErr := do
  match ← dumpTop with
  | .list | .nextKey => put [COMMA]
  | .nextValue => put [COLON]
  | _ => return none

/-- The context after a value, tsimple_json_protocol.go:568-585, 798-811. -/
def JCtx.next : JCtx → JCtx
  | .listFirst => .list
  | .objectFirst => .nextValue
  | .nextKey => .nextValue
  | .nextValue => .nextKey
  | c => c

/-- `OutputPostValue`, tsimple_json_protocol.go:566-587. -/
def outputPostValue : P (Json τ) GoErr := fun s =>
  match s.dump with
  | [] => .panic
  | c :: r => .ret (none, { s with dump := JCtx.next c :: r })

/-- `OutputStringData`, tsimple_json_protocol.go:671-674: `io.CopyN` from an
in-memory reader holding exactly those bytes.  Simplification: text above 32 KiB is
copied in one piece. -/
def outputStringData (v : Bytes) : P (Json τ) GoErr := do
  if v = [] then return none
  else
    let (n, e) ← P.write v
    if e.isSome then return protocolFromOsError e
    if n ≠ v.length then return protocolFromOsError (some ⟨.other, 0, ascii "short write"⟩)
    return none

/-- Whether the next value is a key, tsimple_json_protocol.go:599-600, 633-634,
650-651. -/
def JCtx.isKey : JCtx → Bool
  | .objectFirst | .nextKey => true
  | _ => false

/-- A value given by its text, quoted by `q` when it is a key:
tsimple_json_protocol.go:589-608, 645-659. -/
def outputText (q : Bytes → Bytes) (v : Bytes) : P (Json τ) GoErr := do
  let e ← outputPreValue
  if e.isSome then return e
  let c ← dumpTop
  let e ← outputStringData (if JCtx.isKey c then q v else v)
  if e.isSome then return e
  outputPostValue

variable (E : JsonEnv τ)

/-- `OutputBool`, tsimple_json_protocol.go:589-608. -/
def outputBool (b : Bool) : P (Json τ) GoErr := outputText E.L.quote (if b then TRUE else FALSE)

/-- `OutputI64`, tsimple_json_protocol.go:645-659. -/
def outputI64 (v : I64) : P (Json τ) GoErr := outputText E.L.quote (formatInt v.toInt)

/-- Between quotes. -/
def quoted (v : Bytes) : Bytes := QUOTE :: v ++ [QUOTE]

/-- The positive and the negative infinity. -/
def posInf : F64 := 0x7ff0000000000000
def negInf : F64 := 0xfff0000000000000
/-- `math.NaN()`. -/
def nan : F64 := 0x7ff8000000000001

/-- `OutputF64`, tsimple_json_protocol.go:620-643. -/
def outputF64 (v : F64) : P (Json τ) GoErr :=
  if F64.isNaN v then outputText id (quoted NAN)
  else if v = posInf then outputText id (quoted INFINITY)
  else if v = negInf then outputText id (quoted NEGATIVE_INFINITY)
  else outputText quoted (E.L.format v)

/-- `OutputString`, tsimple_json_protocol.go:661-669. -/
def outputString (s : Bytes) : P (Json τ) GoErr := outputText id (E.L.quote s)

/-- `OutputObjectBegin` and `OutputListBegin`, tsimple_json_protocol.go:676-685,
698-707. -/
def outputBegin (ch : Byte) (c : JCtx) : P (Json τ) GoErr := do
  let e ← outputPreValue
  if e.isSome then return e
  let e ← put [ch]
  if e.isSome then return e
  P.modify fun s => { s with dump := c :: s.dump }
  return none

/-- `OutputObjectEnd` and `OutputListEnd`, tsimple_json_protocol.go:687-696,
709-718. -/
def outputEnd (ch : Byte) : P (Json τ) GoErr := do
  let e ← put [ch]
  if e.isSome then return e
  let _ ← dumpTop
  P.modify fun s => { s with dump := s.dump.tail }
  outputPostValue

def outputObjectBegin : P (Json τ) GoErr := outputBegin LBRACE .objectFirst
def outputObjectEnd : P (Json τ) GoErr := outputEnd RBRACE
def outputListBegin : P (Json τ) GoErr := outputBegin LBRACKET .listFirst
def outputListEnd : P (Json τ) GoErr := outputEnd RBRACKET

/-- `WriteByte`, `WriteI16`, `WriteI32`, tsimple_json_protocol.go:253-263. -/
def writeByte (b : Byte) : P (Json τ) GoErr := outputI64 E (b.setWidth 64)
def writeI16 (v : I16) : P (Json τ) GoErr := outputI64 E (v.signExtend 64)
def writeI32 (v : I32) : P (Json τ) GoErr := outputI64 E (v.signExtend 64)

/-- `OutputElemListBegin`, tsimple_json_protocol.go:720-731. -/
def outputElemListBegin (t : TType) (size : Int) : P (Json τ) GoErr := do
  let e ← outputListBegin
  if e.isSome then return e
  let e ← writeByte E t
  if e.isSome then return e
  outputI64 E (BitVec.ofInt 64 size)

/-- `WriteMessageBegin`, tsimple_json_protocol.go:171-185. -/
def writeMessageBegin (name : Bytes) (t : TMessageType) (seqId : I32) : P (Json τ) GoErr := do
  let e ← outputListBegin
  if e.isSome then return e
  let e ← outputString E name
  if e.isSome then return e
  let e ← writeByte E (t.setWidth 8)
  if e.isSome then return e
  writeI32 E seqId

/-- `WriteMapBegin`, tsimple_json_protocol.go:216-227. -/
def writeMapBegin (k v : TType) (size : Int) : P (Json τ) GoErr := do
  let e ← outputListBegin
  if e.isSome then return e
  let e ← writeByte E k
  if e.isSome then return e
  let e ← writeByte E v
  if e.isSome then return e
  writeI32 E (BitVec.ofInt 32 size)

/-- `Write` of the base64 encoder: blocks of 768 bytes, then the rest up to a
multiple of three; what remains is kept for `Close`.  `fuel` bounds the number of
blocks. -/
def b64write : (fuel : Nat) → Bytes → P (Json τ) (Bytes × GoErr)
  | 0, v => return (v, none)
  | fuel + 1, v => do
    if v.length < 3 then return (v, none)
    else
      let n := if v.length < 768 then v.length - v.length % 3 else 768
      let (_, e) ← P.write (b64encode (v.take n))
      if e.isSome then return (v, e)
      b64write fuel (v.drop n)

/-- `Close` of the base64 encoder. -/
def b64close (v : Bytes) : P (Json τ) GoErr := do
  if v = [] then return none
  else
    let (_, e) ← P.write (b64encode v)
    return e

/-- `WriteBinary`, tsimple_json_protocol.go:277-299. -/
def writeBinary (v : Bytes) : P (Json τ) GoErr := do
  let e ← outputPreValue
  if e.isSome then return e
  let e ← put [QUOTE]
  if e.isSome then return e
  let (r, e) ← b64write v.length v
  if e.isSome then return protocolFromOsError e
  let e ← b64close r
  if e.isSome then return protocolFromOsError e
  let e ← put [QUOTE]
  if e.isSome then return e
  outputPostValue

/-! ## `bufio.Reader` -/

/-- The size of the buffer made by `bufio.NewReader`. -/
def bufSize : Nat := 4096

/-- `fill`: one `Read` of the transport. -/
def fill : P (Json τ) Unit := fun s =>
  match E.T.read (bufSize - s.buf.length) s.t with
  | (.ok (bs, e), t') => .ret ((), { s with buf := s.buf ++ bs, err := e, t := t' })
  | (.panic, _) => .panic
  | (.stuck, _) => .stuck

/-- `fill` until `n` bytes are buffered or there is an error. -/
def fillTo (n : Nat) : (fuel : Nat) → P (Json τ) Unit
  | 0 => do
    let s ← P.get
    if s.buf.length < n ∧ s.err = none then P.stuck else return ()
  | fuel + 1 => do
    let s ← P.get
    if s.buf.length < n ∧ s.err = none then
      fill E
      fillTo n fuel
    else return ()

/-- The error for a buffer that is full. -/
def bufferFull : Err := ⟨.other, 0, ascii "bufio: buffer full"⟩

/-- `Peek`: fewer bytes come with an error, which is then no longer pending. -/
def peek (n : Nat) : P (Json τ) (Bytes × GoErr) := do
  fillTo E n E.fuel
  let s ← P.get
  if s.buf.length < n then
    P.modify fun s => { s with err := none }
    return (s.buf, some (s.err.getD bufferFull))
  return (s.buf.take n, none)

/-- `ReadByte`. -/
def getByte : P (Json τ) (Byte × GoErr) := do
  fillTo E 1 E.fuel
  let s ← P.get
  match s.buf with
  | b :: r =>
    P.modify fun s => { s with buf := r }
    return (b, none)
  | [] =>
    P.modify fun s => { s with err := none }
    return (0, s.err)

/-- `UnreadByte` after `ReadByte` gave `b`. -/
def unreadByte (b : Byte) : P (Json τ) Unit := P.modify fun s => { s with buf := b :: s.buf }

/-- `Read` into a buffer of length `n`, not zero: at most one `fill`. -/
def readUpTo (n : Nat) : P (Json τ) (Bytes × GoErr) := do
  let s ← P.get
  if s.buf = [] ∧ s.err = none then fill E
  let s ← P.get
  if s.buf = [] then
    P.modify fun s => { s with err := none }
    return ([], s.err)
  P.modify fun s => { s with buf := s.buf.drop n }
  return (s.buf.take n, none)

/-- Up to and including the first `d`, and the rest. -/
def cutAfter (d : Byte) : Bytes → Option (Bytes × Bytes)
  | [] => none
  | b :: r => if b = d then some ([b], r) else (cutAfter d r).map fun x => (b :: x.1, x.2)

/-- `ReadString` and `ReadBytes`: everything up to and including `d`; what there
is when an error comes first.  `acc` was taken from full buffers. -/
def readUntil (d : Byte) : (fuel : Nat) → (acc : Bytes) → P (Json τ) (Bytes × GoErr)
  | 0, _ => P.stuck
  | fuel + 1, acc => do
    let s ← P.get
    match cutAfter d s.buf with
    | some (line, rest) =>
      P.modify fun s => { s with buf := rest }
      return (acc ++ line, none)
    | none =>
      if s.err.isSome then
        P.modify fun s => { s with buf := [], err := none }
        return (acc ++ s.buf, s.err)
      else if s.buf.length ≥ bufSize then
        P.modify fun s => { s with buf := [] }
        readUntil d fuel (acc ++ s.buf)
      else
        fill E
        readUntil d fuel acc

/-! ## Parsing -/

/-- `readNonSignificantWhitespace`, tsimple_json_protocol.go:815-831: only what is
already buffered. -/
def dropWs : P (Json τ) Unit := P.modify fun s => { s with buf := s.buf.dropWhile isWs }

/-- The top of `parseContextStack`; indexing an empty slice panics. -/
def parseTop : P (Json τ) JCtx := fun s =>
  match s.parse with
  | [] => .panic
  | c :: _ => .ret (c, s)

/-- One of the cases of `ParsePreValue`: `stop` may come instead of a value, `sep`
is taken. -/
def separator (stop : Byte → Bool) (sep b : Byte) : P (Json τ) GoErr := do
  if stop b then return none
  else if b = sep then
    P.modify fun s => { s with buf := s.buf.tail }
    dropWs
    return none
  else return some invalid

/-- `ParsePreValue`, tsimple_json_protocol.go:733-791. -/
def parsePreValue : P (Json τ) GoErr := do
  dropWs
  let c ← parseTop
  let s ← P.get
  match s.buf with
  | [] => return none
  | b :: _ =>
    match c with
    | .list => separator (fun b => b = RBRACKET) COMMA b
    | .nextKey => separator (fun b => b = RBRACE) COMMA b
    | .nextValue => separator (fun _ => false) COLON b
    | _ => return none

/-- `ParsePostValue`, tsimple_json_protocol.go:793-813. -/
def parsePostValue : P (Json τ) GoErr := do
  dropWs
  let c ← parseTop
  P.modify fun s => { s with parse := JCtx.next c :: s.parse.tail }
  return none

/-- Number of backslashes before the last character. -/
def backslashes (line : Bytes) : Nat := (line.dropLast.reverse.takeWhile fun b => b = BACKSLASH).length

/-- `ParseQuotedStringBody`, tsimple_json_protocol.go:865-887. -/
def parseQuotedStringBody : (fuel : Nat) → P (Json τ) (Bytes × GoErr)
  | 0 => P.stuck
  | fuel + 1 => do
    let (line, err) ← readUntil E QUOTE E.fuel []
    if err.isSome then return ([], protocolFromOsError err)
    if backslashes line % 2 = 0 then return (line, none)
    let (s, err) ← parseQuotedStringBody fuel
    if err.isSome then return ([], protocolFromOsError err)
    return (line ++ s, none)

/-- `ParseStringBody`, tsimple_json_protocol.go:833-863.  In the first case a text
that cannot be unquoted is reported with the error of the read, which is nil. -/
def parseStringBody : P (Json τ) (Bytes × GoErr) := do
  let (line, err) ← readUntil E QUOTE E.fuel []
  if err.isSome then return ([], protocolFromOsError err)
  if backslashes line % 2 = 0 then
    match E.L.unquote (QUOTE :: line) with
    | some v => return (v, none)
    | none => return ([], none)
  else
    let (s, err) ← parseQuotedStringBody E E.fuel
    if err.isSome then return ([], protocolFromOsError err)
    match E.L.unquote (QUOTE :: line ++ s) with
    | some v => return (v, none)
    | none => return ([], some invalid)

/-- `ParseBase64EncodedBody`, tsimple_json_protocol.go:889-899; a
`base64.CorruptInputError` becomes `INVALID_DATA`, tprotocol_exception.go:119-121. -/
def parseBase64EncodedBody : P (Json τ) (Bytes × GoErr) := do
  let (line, err) ← readUntil E QUOTE E.fuel []
  if err.isSome then return (line, protocolFromOsError err)
  let (out, ok) := b64decode line.dropLast
  return (out, if ok then none else some invalid)

/-- Skip white space up to something else, then take `null` if it is there:
`readIfNull`, tsimple_json_protocol.go:1112-1139. -/
def readIfNull : P (Json τ) Bool := do
  dropWs
  let s ← P.get
  match s.buf with
  | [] => return false
  | b :: _ =>
    if b = 110 then
      let (p, _) ← peek E 4
      if p = NULL then
        let _ ← readUpTo E 4
        return true
      else return false
    else return false

/-- `readQuoteIfNext`, tsimple_json_protocol.go:1141-1149. -/
def readQuoteIfNext : P (Json τ) Unit := P.modify fun s =>
  match s.buf with
  | [] => s
  | b :: r => if b = QUOTE then { s with buf := r } else s

/-- `Numeric`: the integer and the floating point value. -/
structure Num where
  i : I64
  d : F64
  deriving DecidableEq, Repr

/-- `NUMERIC_NULL`, `NAN`, `INFINITY`, `NEGATIVE_INFINITY`, tnumeric.go:158-164. -/
def Num.null : Num := ⟨0, 0⟩
def Num.nan : Num := ⟨0, JsonProtocol.nan⟩
def Num.inf : Num := ⟨0, posInf⟩
def Num.negInf : Num := ⟨0, JsonProtocol.negInf⟩

/-- `NewNumericFromJSONString` for text made of digits, points, signs and
exponents, tnumeric.go:100-116: errors of the conversions are dropped. -/
def numericOf (s : Bytes) : Num := ⟨(parseInt s).1, E.L.parse s⟩

/-- The variables of `readNumeric`, tsimple_json_protocol.go:1156-1162. -/
structure NumState where
  buf : Bytes := []
  hasDecimalPoint : Bool := false
  nextCanBeSign : Bool := true
  hasE : Bool := false
  inQuotes : Bool := false

/-- The rest of one of the words `NaN`, `Infinity`, `-Infinity`,
tsimple_json_protocol.go:1201-1214, 1220-1233, 1235-1249: `pre` has been read. -/
def readWord (pre word : Bytes) (v : Num) (inQuotes : Bool) : P (Json τ) (Num × GoErr) := do
  let (bs, e) ← readUpTo E (word.length - pre.length)
  if e.isSome then return (Num.null, protocolFromOsError e)
  if word ≠ pre ++ fillBuf (word.length - pre.length) bs then return (Num.null, some invalid)
  if inQuotes then readQuoteIfNext
  return (v, none)

/-- The characters after which a number ends, tsimple_json_protocol.go:1196. -/
def endsNumber (c : Byte) : Bool :=
  c = 32 || c = 0 || c = 9 || c = 10 || c = 13 || c = RBRACE || c = RBRACKET || c = COMMA || c = COLON

/-- The end of `readNumeric`, tsimple_json_protocol.go:1263-1266. -/
def finishNumber (n : NumState) : Num × GoErr :=
  if n.buf = [] then (Num.null, some invalid) else (numericOf E n.buf, none)

/-- The loop of `readNumeric`, tsimple_json_protocol.go:1163-1262.  A second quote
is passed over. -/
def numberLoop : (fuel : Nat) → NumState → P (Json τ) (Num × GoErr)
  | 0, _ => P.stuck
  | fuel + 1, n => do
    let (c, err) ← getByte E
    match err with
    | some e => if e.kind = .eof then return finishNumber E n else return (Num.null, protocolFromOsError err)
    | none =>
      if 48 ≤ c.toNat ∧ c.toNat ≤ 57 then numberLoop fuel { n with buf := n.buf ++ [c], nextCanBeSign := false }
      else if c = 46 then
        if n.hasDecimalPoint || n.hasE then return (Num.null, some invalid)
        else numberLoop fuel { n with buf := n.buf ++ [c], hasDecimalPoint := true, nextCanBeSign := false }
      else if c = 101 ∨ c = 69 then
        if n.hasE then return (Num.null, some invalid)
        else numberLoop fuel { n with buf := n.buf ++ [c], hasE := true, nextCanBeSign := true }
      else if c = 45 ∨ c = 43 then
        if !n.nextCanBeSign then return (Num.null, some invalid)
        else numberLoop fuel { n with buf := n.buf ++ [c], nextCanBeSign := false }
      else if endsNumber c then
        unreadByte c
        return finishNumber E n
      else if c = 78 then
        if n.buf = [] then readWord E [c] NAN Num.nan n.inQuotes else return (Num.null, some invalid)
      else if c = 73 then
        if n.buf = [] ∨ n.buf = [43] then readWord E [c] INFINITY Num.inf n.inQuotes
        else if n.buf = [45] then readWord E [45, c] NEGATIVE_INFINITY Num.negInf n.inQuotes
        else return (Num.null, some invalid)
      else if c = QUOTE then numberLoop fuel { n with inQuotes := true }
      else return (Num.null, some invalid)

/-- `readNumeric`, tsimple_json_protocol.go:1151-1267. -/
def readNumeric : P (Json τ) (Num × GoErr) := do
  if ← readIfNull E then return (Num.null, none)
  else numberLoop E E.fuel {}

/-- `ParseI64` and `ParseF64`, tsimple_json_protocol.go:901-945; the `isnull`
result is not used. -/
def parseNumber : P (Json τ) (Num × GoErr) := do
  let e ← parsePreValue
  if e.isSome then return (⟨0, 0⟩, e)
  let (b, _) ← peek E 4
  if b = NULL then
    let _ ← readUpTo E 4
    return (⟨0, 0⟩, ← parsePostValue)
  else
    let (n, e) ← readNumeric E
    if e.isSome then return (n, e)
    return (n, ← parsePostValue)

/-- `ParseObjectStart`, tsimple_json_protocol.go:947-960; a `null` is left where it
is. -/
def parseObjectStart : P (Json τ) (Bool × GoErr) := do
  let e ← parsePreValue
  if e.isSome then return (false, e)
  let (b, _) ← peek E 4
  if b.head? = some LBRACE then
    let _ ← getByte E
    P.modify fun s => { s with parse := .objectFirst :: s.parse }
    return (false, none)
  else if b = NULL then return (true, none)
  else return (false, some invalid)

/-- The last part of `ParseObjectEnd` and `ParseListEnd`: only white space before
the bracket, tsimple_json_protocol.go:970-983, 1022-1035. -/
def parseClose (ch : Byte) : P (Json τ) GoErr := do
  let (line, err) ← readUntil E ch E.fuel []
  if err.isSome then return protocolFromOsError err
  if line.all fun b => isWs b || b = ch then
    P.modify fun s => { s with parse := s.parse.tail }
    parsePostValue
  else return some invalid

/-- `ParseObjectEnd`, tsimple_json_protocol.go:962-984. -/
def parseObjectEnd : P (Json τ) GoErr := do
  if ← readIfNull E then return none
  let c ← parseTop
  if c ≠ .objectFirst ∧ c ≠ .nextKey then return some invalid
  parseClose E RBRACE

/-- `ParseListBegin`, tsimple_json_protocol.go:986-999. -/
def parseListBegin : P (Json τ) (Bool × GoErr) := do
  let e ← parsePreValue
  if e.isSome then return (false, e)
  let (b, e) ← peek E 4
  if e = none ∧ b.head? = some LBRACKET then
    P.modify fun s => { s with parse := .listFirst :: s.parse }
    let _ ← getByte E
    return (false, none)
  else if e = none ∧ b = NULL then return (true, none)
  else return (false, some invalid)

/-- `ParseListEnd`, tsimple_json_protocol.go:1015-1036. -/
def parseListEnd : P (Json τ) GoErr := do
  if ← readIfNull E then return none
  let c ← parseTop
  if c ≠ .list then return some invalid
  parseClose E RBRACKET

/-- `ReadI64`, `ReadI32`, `ReadI16`, `ReadByte`, tsimple_json_protocol.go:464-482. -/
def readI64 : P (Json τ) (I64 × GoErr) := do let (n, e) ← parseNumber E; return (n.i, e)
def readI32 : P (Json τ) (I32 × GoErr) := do let (n, e) ← readI64 E; return (n.setWidth 32, e)
def readI16 : P (Json τ) (I16 × GoErr) := do let (n, e) ← readI64 E; return (n.setWidth 16, e)
def readByte : P (Json τ) (Byte × GoErr) := do let (n, e) ← readI64 E; return (n.setWidth 8, e)
/-- `ReadDouble`, tsimple_json_protocol.go:484-487. -/
def readDouble : P (Json τ) (F64 × GoErr) := do let (n, e) ← parseNumber E; return (n.d, e)

/-- `ParseElemListBegin`, tsimple_json_protocol.go:1001-1013. -/
def parseElemListBegin : P (Json τ) ((TType × Int) × GoErr) := do
  let (isNull, e) ← parseListBegin E
  if isNull ∨ e.isSome then return ((TT.VOID, 0), e)
  let (t, e) ← readByte E
  if e.isSome then return ((t, 0), e)
  let (n, e) ← readI64 E
  return ((t, n.toInt), e)

/-- One of the words of `ReadBool`, tsimple_json_protocol.go:434-456: `b` was
peeked and may be shorter than the word, then the slice expression shows what lies
behind it in the buffer, or panics. -/
def readBoolWord (b word : Bytes) (v : Bool) : P (Json τ) (Bool × GoErr) := do
  let s ← P.get
  let seen := (b ++ E.stale s).take word.length
  if seen.length < word.length then P.panic
  else if seen = word then
    let _ ← readUpTo E word.length
    return (v, ← parsePostValue)
  else return (false, some invalid)

/-- `ReadBool`, tsimple_json_protocol.go:426-462. -/
def readBool : P (Json τ) (Bool × GoErr) := do
  let e ← parsePreValue
  if e.isSome then return (false, e)
  let (b, _) ← peek E 5
  match b with
  | [] => return (false, ← parsePostValue)
  | c :: _ =>
    if c = 116 then readBoolWord E b TRUE true
    else if c = 102 then readBoolWord E b FALSE false
    else if c = 110 then readBoolWord E b NULL false
    else return (false, some invalid)

/-- `ReadString` and `ReadBinary`, tsimple_json_protocol.go:489-535, over the
parser of the body. -/
def readQuoted (body : P (Json τ) (Bytes × GoErr)) : P (Json τ) (Bytes × GoErr) := do
  let e ← parsePreValue
  if e.isSome then return ([], e)
  let (b, _) ← peek E 4
  if b.head? = some QUOTE then
    let _ ← getByte E
    let (v, e) ← body
    if e.isSome then return (v, e)
    return (v, ← parsePostValue)
  else if b = NULL then
    let (_, e) ← readUpTo E 4
    if e.isSome then return ([], protocolFromOsError e)
    return ([], ← parsePostValue)
  else return ([], some invalid)

def readString : P (Json τ) (Bytes × GoErr) := readQuoted E (parseStringBody E)
def readBinary : P (Json τ) (Bytes × GoErr) := readQuoted E (parseBase64EncodedBody E)

/-- `ReadMessageBegin` after the list has begun, tsimple_json_protocol.go:309-320,
tjson_protocol.go:215-226. -/
def readMessageRest : P (Json τ) ((Bytes × TMessageType × I32) × GoErr) := do
  let (name, e) ← readString E
  if e.isSome then return ((name, 0, 0), e)
  let (t, e) ← readByte E
  if e.isSome then return ((name, t.setWidth 32, 0), e)
  let (seqId, e) ← readI32 E
  return ((name, t.setWidth 32, seqId), e)

/-- `ReadMessageBegin`, tsimple_json_protocol.go:305-321. -/
def readMessageBegin : P (Json τ) ((Bytes × TMessageType × I32) × GoErr) := do
  let (isNull, e) ← parseListBegin E
  if isNull ∨ e.isSome then return (([], 0, 0), e)
  readMessageRest E

/-- `ReadStructBegin`, tsimple_json_protocol.go:327-330. -/
def readStructBegin : P (Json τ) (Bytes × GoErr) := do
  let (_, e) ← parseObjectStart E
  return ([], e)

/-- `ReadFieldBegin`, tsimple_json_protocol.go:336-374.  After `Buffered` there is
something to peek at. -/
def readFieldBegin : P (Json τ) ((Bytes × TType × I16) × GoErr) := do
  let e ← parsePreValue
  if e.isSome then return (([], TT.STOP, 0), e)
  let s ← P.get
  match s.buf with
  | [] => return (([], TT.STOP, 0), none)
  | b :: _ =>
    if b = RBRACE then return (([], TT.STOP, 0), none)
    else if b = QUOTE then
      let _ ← getByte E
      let (name, e) ← parseStringBody E
      if e.isSome then return ((name, TT.STOP, 0), e)
      return ((name, TT.GENERIC, -1), ← parsePostValue)
    else return (([], TT.STOP, 0), some invalid)

/-- `ReadMapBegin`, tsimple_json_protocol.go:381-404. -/
def readMapBegin : P (Json τ) ((TType × TType × Int) × GoErr) := do
  let (isNull, e) ← parseListBegin E
  if isNull ∨ e.isSome then return ((TT.VOID, TT.VOID, 0), e)
  let (k, e) ← readByte E
  if e.isSome then return ((k, 0, 0), e)
  let (v, e) ← readByte E
  if e.isSome then return ((k, v, 0), e)
  let (n, e) ← readI64 E
  return ((k, v, n.toInt), e)

/-- `Flush`, tsimple_json_protocol.go:537-539. -/
def flush : P (Json τ) GoErr := do return protocolFromOsError (← P.tflush)

end JsonProtocol

/-- `NewTSimpleJSONProtocol`, tsimple_json_protocol.go:94-102. -/
def Json.newSimple (t : τ) : Json τ := ⟨[.toplevel], [.toplevel], [], none, t⟩

/-- `NewTJSONProtocol`, tjson_protocol.go:48-53. -/
def Json.new (t : τ) : Json τ := ⟨[.toplevel, .toplevel], [.toplevel, .toplevel], [], none, t⟩

/-- `TSimpleJSONProtocol`.  The methods not named above are at
tsimple_json_protocol.go:187-299, 323-334, 376-424. -/
def simpleJson (E : JsonEnv τ) : Proto (Json τ) where
  writeMessageBegin := JsonProtocol.writeMessageBegin E
  writeMessageEnd := JsonProtocol.outputListEnd
  writeStructBegin _ := JsonProtocol.outputObjectBegin
  writeStructEnd := JsonProtocol.outputObjectEnd
  writeFieldBegin name _ _ := JsonProtocol.outputString E name
  writeFieldEnd := return none
  writeFieldStop := return none
  writeMapBegin := JsonProtocol.writeMapBegin E
  writeMapEnd := JsonProtocol.outputListEnd
  writeListBegin := JsonProtocol.outputElemListBegin E
  writeListEnd := JsonProtocol.outputListEnd
  writeSetBegin := JsonProtocol.outputElemListBegin E
  writeSetEnd := JsonProtocol.outputListEnd
  writeBool := JsonProtocol.outputBool E
  writeByte := JsonProtocol.writeByte E
  writeI16 := JsonProtocol.writeI16 E
  writeI32 := JsonProtocol.writeI32 E
  writeI64 := JsonProtocol.outputI64 E
  writeDouble := JsonProtocol.outputF64 E
  writeString := JsonProtocol.outputString E
  writeBinary := JsonProtocol.writeBinary
  readMessageBegin := JsonProtocol.readMessageBegin E
  readMessageEnd := JsonProtocol.parseListEnd E
  readStructBegin := JsonProtocol.readStructBegin E
  readStructEnd := JsonProtocol.parseObjectEnd E
  readFieldBegin := JsonProtocol.readFieldBegin E
  readFieldEnd := return none
  readMapBegin := JsonProtocol.readMapBegin E
  readMapEnd := JsonProtocol.parseListEnd E
  readListBegin := JsonProtocol.parseElemListBegin E
  readListEnd := JsonProtocol.parseListEnd E
  readSetBegin := JsonProtocol.parseElemListBegin E
  readSetEnd := JsonProtocol.parseListEnd E
  readBool := JsonProtocol.readBool E
  readByte := JsonProtocol.readByte E
  readI16 := JsonProtocol.readI16 E
  readI32 := JsonProtocol.readI32 E
  readI64 := JsonProtocol.readI64 E
  readDouble := JsonProtocol.readDouble E
  readString := JsonProtocol.readString E
  readBinary := JsonProtocol.readBinary E
  flush := JsonProtocol.flush

/-! ## The tagged protocol -/

namespace TJsonProtocol
open JsonProtocol

variable {τ : Type}

/-- `TypeIdToString`, tjson_protocol.go:462-498. -/
def typeIdToString (t : TType) : Bytes :=
  if t = TT.STOP then ascii "stp"
  else if t = TT.VOID then ascii "v"
  else if t = TT.BOOL then ascii "tf"
  else if t = TT.BYTE then ascii "i8"
  else if t = TT.DOUBLE then ascii "dbl"
  else if t = TT.I16 then ascii "i16"
  else if t = TT.I32 then ascii "i32"
  else if t = TT.I64 then ascii "i64"
  else if t = TT.STRING then ascii "str"
  else if t = TT.STRUCT then ascii "rec"
  else if t = TT.MAP then ascii "map"
  else if t = TT.SET then ascii "set"
  else if t = TT.LIST then ascii "lst"
  else if t = TT.ENUM then ascii "i32"
  else if t = TT.UTF16 then ascii "str"
  else if t = TT.GENERIC then ascii "gen"
  else []

/-- `StringToTypeId`, tjson_protocol.go:500-536; the name for I16 is `16`. -/
def stringToTypeId (s : Bytes) : TType :=
  if s = ascii "stp" then TT.STOP
  else if s = ascii "v" then TT.VOID
  else if s = ascii "tf" then TT.BOOL
  else if s = ascii "i8" then TT.BYTE
  else if s = ascii "dbl" then TT.DOUBLE
  else if s = ascii "16" then TT.I16
  else if s = ascii "i32" then TT.I32
  else if s = ascii "i64" then TT.I64
  else if s = ascii "str" then TT.STRING
  else if s = ascii "rec" then TT.STRUCT
  else if s = ascii "map" then TT.MAP
  else if s = ascii "set" then TT.SET
  else if s = ascii "lst" then TT.LIST
  else if s = ascii "enm" then TT.ENUM
  else if s = ascii "u16" then TT.UTF16
  else if s = ascii "gen" then TT.GENERIC
  else TT.STOP

variable (E : JsonEnv τ)

/-- `WriteMessageBegin`, tjson_protocol.go:68-85. -/
def writeMessageBegin (name : Bytes) (t : TMessageType) (seqId : I32) : P (Json τ) GoErr := do
  let e ← outputListBegin
  if e.isSome then return e
  let e ← writeI32 E 1
  if e.isSome then return e
  let e ← outputString E name
  if e.isSome then return e
  let e ← writeByte E (t.setWidth 8)
  if e.isSome then return e
  writeI32 E seqId

/-- `WriteFieldBegin`, tjson_protocol.go:102-113. -/
def writeFieldBegin (t : TType) (id : I16) : P (Json τ) GoErr := do
  let e ← writeI16 E id
  if e.isSome then return e
  let e ← outputObjectBegin
  if e.isSome then return e
  outputString E (typeIdToString t)

/-- `WriteMapBegin`, tjson_protocol.go:121-132. -/
def writeMapBegin (k v : TType) (size : Int) : P (Json τ) GoErr := do
  let e ← outputListBegin
  if e.isSome then return e
  let e ← outputString E (typeIdToString k)
  if e.isSome then return e
  let e ← outputString E (typeIdToString v)
  if e.isSome then return e
  outputI64 E (BitVec.ofInt 64 size)

/-- `WriteBinary`, tjson_protocol.go:182-198: the errors of the quotes and of the
last block are dropped. -/
def writeBinary (v : Bytes) : P (Json τ) GoErr := do
  let e ← outputPreValue
  if e.isSome then return e
  let _ ← P.write [QUOTE]
  let (r, e) ← b64write v.length v
  if e.isSome then return protocolFromOsError e
  let _ ← b64close r
  let _ ← P.write [QUOTE]
  outputPostValue

/-- `ReadMessageBegin`, tjson_protocol.go:204-227. -/
def readMessageBegin : P (Json τ) ((Bytes × TMessageType × I32) × GoErr) := do
  let (isNull, e) ← parseListBegin E
  if isNull ∨ e.isSome then return (([], 0, 0), e)
  let (version, e) ← readI32 E
  if e.isSome then return (([], 0, 0), e)
  if version ≠ 1 then return (([], 0, 0), some invalid)
  readMessageRest E

/-- `ReadFieldBegin` after the field id, tjson_protocol.go:255-260. -/
def readFieldRest (id : I16) : P (Json τ) ((Bytes × TType × I16) × GoErr) := do
  let (_, e) ← parseObjectStart E
  if e.isSome then return (([], TT.STOP, id), e)
  let (t, e) ← readString E
  return (([], stringToTypeId t, id), e)

/-- `ReadFieldBegin`, tjson_protocol.go:243-261. -/
def readFieldBegin : P (Json τ) ((Bytes × TType × I16) × GoErr) := do
  let s ← P.get
  match s.buf with
  | [] => return (([], TT.STOP, -1), none)
  | b :: _ =>
    if b = RBRACE ∨ b = RBRACKET then return (([], TT.STOP, -1), none)
    else
      let (id, e) ← readI16 E
      if e.isSome then return (([], TT.STOP, id), e)
      readFieldRest E id

/-- `ReadMapBegin`, tjson_protocol.go:267-290. -/
def readMapBegin : P (Json τ) ((TType × TType × Int) × GoErr) := do
  let (isNull, e) ← parseListBegin E
  if isNull ∨ e.isSome then return ((TT.VOID, TT.VOID, 0), e)
  let (k, e) ← readString E
  if e.isSome then return ((stringToTypeId k, 0, 0), e)
  let (v, e) ← readString E
  if e.isSome then return ((stringToTypeId k, stringToTypeId v, 0), e)
  let (n, e) ← readI64 E
  return ((stringToTypeId k, stringToTypeId v, n.toInt), e)

end TJsonProtocol

/-- `TJSONProtocol`, tjson_protocol.go:41-460.  The methods that are not named
above do what those of `TSimpleJSONProtocol` do; the unexported element list
methods (L435-460) are not called. -/
def tjson (E : JsonEnv τ) : Proto (Json τ) :=
  { simpleJson E with
    writeMessageBegin := TJsonProtocol.writeMessageBegin E
    writeFieldBegin := fun _ t id => TJsonProtocol.writeFieldBegin E t id
    writeFieldEnd := JsonProtocol.outputObjectEnd
    writeMapBegin := TJsonProtocol.writeMapBegin E
    writeBinary := TJsonProtocol.writeBinary
    readMessageBegin := TJsonProtocol.readMessageBegin E
    readFieldBegin := TJsonProtocol.readFieldBegin E
    readFieldEnd := JsonProtocol.parseObjectEnd E
    readMapBegin := TJsonProtocol.readMapBegin E }

end Thrift
