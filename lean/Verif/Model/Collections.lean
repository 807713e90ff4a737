import Verif.Model.Dyn
/-!
# The containers of the library

`tset.go`, `tlist.go`, `tmap.go`.
-/

namespace Thrift

/-- The receiver of a method promoted from the embedded `*tStruct`, whose
`AttributeFromFieldId` gives nil for every id (tstruct.go:80-86). -/
def Dyn.receiver : Dyn → Dyn
  | .struct ptr _ name _ fields _ => .struct ptr false name name fields []
  | d => d

/-- The type by which a container or struct compares itself with other values:
tset.go:109-116, tmap.go:741-748, tlist.go:235-242,
tstruct.go:71-78. -/
def Dyn.ownType : Dyn → TType
  | .struct .. => TT.STRUCT
  | .map .. => TT.MAP
  | .set .. => TT.SET
  | _ => TT.LIST

/-- `d.Equals(other)` for a container or struct. -/
def Dyn.equalsOther (L : FloatLib) (d other : Dyn) : Res Bool := do
  let (c, ok) ← compare L d.ownType d.receiver other
  return ok && c = 0

/-- The first element with the wanted property. -/
def findIdxRes (f : Dyn → Res Bool) : List Dyn → Res (Option Nat)
  | [] => .ok none
  | e :: es => do
    if ← f e then return some 0
    return (← findIdxRes f es).map (· + 1)

/-- `bytes.Compare(data.([]byte), elem.Value.([]byte)) == 0`. -/
def bytesEq : Dyn → Dyn → Res Bool
  | .bytes a, .bytes b => .ok (compareString a b = 0)
  | _, _ => .panic

/-- The test of one element, tset.go:131-209. -/
def elemTest (L : FloatLib) (et : TType) (data e : Dyn) : Res Bool :=
  if et = TT.BINARY then bytesEq data e
  else if isBaseType et || et = TT.ENUM then data.goEq e
  else data.equalsOther L e

/-- `find` of tset.go:118-210 and `indexOf` of tlist.go:139-233 (the same code
over a linked list and over a slice).  Every container and struct has an
`Equals(interface{})` method, so the last `switch` of the code is never
reached. -/
def findElem (L : FloatLib) (et : TType) (l : List Dyn) (data : Dyn) : Res (Option Nat) :=
  if data.isNil then findIdxRes (fun e => .ok e.isNil) l
  else do
    let (data, ok) ← coerceData L et data
    if data.isNil || !ok then return none
    findIdxRes (elemTest L et data) l

/-! ## Sets -/

/-- `tSet`, tset.go:43-47; the linked list as the list of its values. -/
structure TSet where
  elemType : TType
  size : Int
  l : List Dyn

namespace TSet

/-- `NewTSet`, tset.go:49-51. -/
def new (t : TType) (s : Int) : TSet := ⟨t, s, []⟩

/-- `Len`, tset.go:69-74. -/
def len (p : TSet) : Int := if p.l.length ≠ 0 then p.l.length else p.size

/-- The loop of `Add`, tset.go:85-92. -/
def addLoop (L : FloatLib) (t : TType) (data : Dyn) : List Dyn → Res (List Dyn)
  | [] => .ok []
  | e :: es => do
    let (cmp, ok) ← compare L t data e
    if ok && cmp ≥ 0 then
      if cmp > 0 then return data :: e :: es
      return e :: es
    return e :: (← addLoop L t data es)

/-- `Add`, tset.go:80-95. -/
def add (L : FloatLib) (p : TSet) (other : Dyn) : Res TSet := do
  let (data, ok) ← coerceData L p.elemType other
  if ok then
    if p.l.isEmpty then return { p with l := [data] }
    return { p with l := ← addLoop L p.elemType data p.l }
  return p

/-- `Contains`, tset.go:76-78. -/
def contains (L : FloatLib) (p : TSet) (data : Dyn) : Res Bool := do
  return (← findElem L p.elemType p.l data).isSome

/-- `Remove`, tset.go:97-102. -/
def remove (L : FloatLib) (p : TSet) (data : Dyn) : Res TSet := do
  match ← findElem L p.elemType p.l data with
  | some i => return { p with l := p.l.eraseIdx i }
  | none => return p

/-- `Values`, tset.go:212-221; also the enumeration by `Front` and `Next`. -/
def values (p : TSet) : List Dyn := p.l

/-- What other code sees of the set. -/
def toDyn (p : TSet) (ptr : Nat) : Dyn := .set ptr p.elemType p.len p.values

end TSet

/-! ## Lists -/

/-- `tList`, tlist.go:45-48. -/
structure TList where
  elemType : TType
  l : List Dyn

namespace TList

/-- `NewTList`, tlist.go:50-54. -/
def new (t : TType) : TList := ⟨t, []⟩
/-- `Len`, tlist.go:64-66. -/
def len (p : TList) : Int := p.l.length

/-- Reading `l[i]`. -/
def index (l : List Dyn) (i : Int) : Res Dyn :=
  if i < 0 then .panic else match l[i.toNat]? with | some v => .ok v | none => .panic

/-- Assigning to `l[i]`. -/
def assign (l : List Dyn) (i : Int) (v : Dyn) : Res (List Dyn) :=
  if i < 0 ∨ i ≥ l.length then .panic else .ok (l.set i.toNat v)

/-- `At`, tlist.go:68-70. -/
def get (p : TList) (i : Int) : Res Dyn := index p.l i

/-- The element type after the check of `Set` and `Push`, tlist.go:73-75, 86-88. -/
def typeFor (p : TList) (data : Dyn) : TType :=
  if isEmptyType p.elemType then typeFromValue data else p.elemType

/-- `Set`, tlist.go:72-83. -/
def set (L : FloatLib) (p : TList) (i : Int) (data : Dyn) : Res TList := do
  let t := p.typeFor data
  let (data, ok) ← coerceData L t data
  if ok then
    if (p.l.length : Int) ≥ i then return ⟨t, ← assign p.l i data⟩
    return ⟨t, p.l ++ [data]⟩
  return ⟨t, p.l⟩

/-- `Push`, tlist.go:85-93. -/
def push (L : FloatLib) (p : TList) (data : Dyn) : Res TList := do
  let t := p.typeFor data
  let (data, ok) ← coerceData L t data
  if ok then return ⟨t, p.l ++ [data]⟩
  return ⟨t, p.l⟩

/-- `Pop`, tlist.go:95-99. -/
def pop (p : TList) : Res (Dyn × TList) := do
  let x ← index p.l (p.l.length - 1)
  return (x, { p with l := p.l.take (p.l.length - 1) })

/-- `Swap`, tlist.go:101-105. -/
def swap (p : TList) (i j : Int) : Res TList := do
  let x ← index p.l i
  let y ← index p.l j
  let l ← assign p.l i y
  let l ← assign l j x
  return { p with l }

/-- `Insert`, tlist.go:107-111: no coercion. -/
def insert (p : TList) (i : Int) (data : Dyn) : Res TList :=
  if i < 0 ∨ i > p.l.length then .panic
  else .ok { p with l := p.l.take i.toNat ++ ([data] ++ p.l.drop i.toNat) }

/-- `Delete`, tlist.go:113-115. -/
def delete (p : TList) (i : Int) : Res TList :=
  if i < 0 ∨ i + 1 > p.l.length then .panic
  else .ok { p with l := p.l.take i.toNat ++ p.l.drop (i.toNat + 1) }

/-- `Contains`, tlist.go:117-119. -/
def contains (L : FloatLib) (p : TList) (data : Dyn) : Res Bool := do
  return (← findElem L p.elemType p.l data).isSome

/-- `Less`, tlist.go:121-124: the second result of `Compare`, not its sign. -/
def less (L : FloatLib) (p : TList) (i j : Int) : Res Bool := do
  let x ← index p.l i
  let y ← index p.l j
  return (← compare L p.elemType x y).2

/-- What other code sees of the list. -/
def toDyn (p : TList) (ptr : Nat) : Dyn := .list ptr p.elemType p.l

end TList

/-! ## Maps -/

/-- `tMap`, tmap.go:54-66.  `l` is the linked list of elements, `m` the one Go map
that the key type selects, as an association list; `none` is the nil map.  The
key type changes only while it is STOP or VOID, and those use the list, so at
most one of the seven maps is ever made. -/
structure TMap where
  keyType : TType
  valueType : TType
  size : Int
  l : List (Dyn × Dyn)
  m : Option (List (Dyn × Dyn))

namespace TMap

/-- `NewTMap`, tmap.go:85-87. -/
def new (k v : TType) (s : Int) : TMap := ⟨k, v, s, [], none⟩

/-- The key types whose entries live in a Go map. -/
def usesGoMap (t : TType) : Bool :=
  t = TT.BOOL || t = TT.BYTE || t = TT.I16 || t = TT.I32 || t = TT.I64 || t = TT.DOUBLE || t = TT.STRING ||
    t = TT.ENUM || t = TT.UTF16

/-- Whether the type assertion `key.(T)` for the map of key type `t` succeeds. -/
def keyFits (t : TType) : Dyn → Bool
  | .bool _ => t = TT.BOOL
  | .byte _ => t = TT.BYTE
  | .int16 _ => t = TT.I16
  | .int32 _ => t = TT.I32
  | .int64 _ => t = TT.I64
  | .float64 _ => t = TT.DOUBLE
  | .string _ => t = TT.STRING || t = TT.ENUM || t = TT.UTF16
  | _ => false

/-- Equality of keys in a Go map. -/
def sameKey (a b : Dyn) : Bool := match a.goEq b with | .ok b => b | _ => false

/-- `m[k]` with the `ok` result. -/
def lookup (m : List (Dyn × Dyn)) (k : Dyn) : Option Dyn := (m.find? fun e => sameKey k e.1).map (·.2)

/-- `m[k] = v`.  A NaN key equals nothing and makes a new entry each time. -/
def store (m : List (Dyn × Dyn)) (k v : Dyn) : List (Dyn × Dyn) :=
  if m.any fun e => sameKey k e.1 then m.map fun e => if sameKey k e.1 then (e.1, v) else e else m ++ [(k, v)]

/-- `Len`, tmap.go:101-126. -/
def len (p : TMap) : Int :=
  if p.l.length ≠ 0 then p.l.length
  else if p.keyType = TT.STOP ∨ p.keyType = TT.VOID then 0
  else if usesGoMap p.keyType then (p.m.getD []).length
  else p.size

/-- The scan of the list for a key, tmap.go:212-306, by the test of one key. -/
def scan (f : Dyn → Res Bool) : List (Dyn × Dyn) → Res (Option Dyn)
  | [] => .ok none
  | e :: es => do
    if e.1.isNil then return ← scan f es
    if ← f e.1 then return some e.2
    scan f es

/-- The test of a listed key against the wanted one, tmap.go:212-306, 475-560.
All keys of the list have the key type (they were coerced), so the
`reflect.DeepEqual` branches are never reached. -/
def keyTest (L : FloatLib) (t : TType) (want k : Dyn) : Res Bool :=
  if t = TT.BINARY then bytesEq k want else k.equalsOther L want

/-- `Get`, tmap.go:128-311. -/
def get (L : FloatLib) (p : TMap) (key : Dyn) : Res (Dyn × Bool) :=
  if isEmptyType p.keyType then .ok (.nil, false)
  else if key.isNil then
    match p.l.find? fun e => e.1.isNil with
    | some e => .ok (e.2, true)
    | none => .ok (.nil, false)
  else do
    let (useKey, ok) ← coerceData L p.keyType key
    if !ok then return (.nil, false)
    if usesGoMap p.keyType then
      match p.m with
      | none =>
        if p.keyType = TT.BYTE then
          if keyFits p.keyType useKey then return (.nil, false) else .panic
        else return (.nil, false)
      | some m =>
        if !keyFits p.keyType useKey then .panic
        else match lookup m useKey with
          | some v => return (v, true)
          | none => return (.nil, p.keyType = TT.BOOL)
    else
      match ← scan (keyTest L p.keyType useKey) p.l with
      | some v => return (v, true)
      | none => return (.nil, false)

/-- The list part of `Set`, tmap.go:328-343. -/
def insertSorted (L : FloatLib) (t : TType) (k v : Dyn) : List (Dyn × Dyn) → Res (List (Dyn × Dyn))
  | [] => .ok [(k, v)]
  | e :: es => do
    let (cmp, ok) ← compare L t k e.1
    if ok && cmp ≥ 0 then
      if cmp = 0 then return (k, v) :: es
      return (k, v) :: e :: es
    return e :: (← insertSorted L t k v es)

/-- `Set`, tmap.go:313-400.  A Go map stores the value as given, the list stores
the coerced one. -/
def set (L : FloatLib) (p : TMap) (key value : Dyn) : Res TMap := do
  let kt := if p.keyType = TT.STOP ∨ p.keyType = TT.VOID then typeFromValue key else p.keyType
  let (ck, ok) ← coerceData L kt key
  if !ok then return { p with keyType := kt }
  let vt := if p.valueType = TT.STOP ∨ p.valueType = TT.VOID then typeFromValue value else p.valueType
  let (cv, ok) ← coerceData L vt value
  if !ok then return { p with keyType := kt, valueType := vt }
  if !isBaseType kt || kt = TT.BINARY then
    return { p with keyType := kt, valueType := vt, l := ← insertSorted L kt ck cv p.l }
  if key.isNil then return { p with keyType := kt, valueType := vt }
  if !keyFits kt ck then .panic
  else return { p with keyType := kt, valueType := vt, m := some (store (p.m.getD []) ck value) }

/-- `Contains`, tmap.go:402-565. -/
def contains (L : FloatLib) (p : TMap) (key : Dyn) : Res Bool := do
  let (ck, ok) ← coerceData L p.keyType key
  if !ok then return false
  if ck.isNil then return p.l.any fun e => e.1.isNil
  if p.keyType = TT.STOP ∨ p.keyType = TT.VOID then return false
  if usesGoMap p.keyType then
    match p.m with
    | none =>
      if p.keyType = TT.BYTE then
        if keyFits p.keyType ck then return false else .panic
      else return false
    | some m => if !keyFits p.keyType ck then .panic else return (lookup m ck).isSome
  else return (← scan (keyTest L p.keyType ck) p.l).isSome

/-- The entries that iteration delivers, tmap.go:568-615, up to order; maps with
keys of type MAP cannot be enumerated. -/
def entries (p : TMap) : Res (List (Dyn × Dyn)) :=
  if p.keyType = TT.STOP ∨ p.keyType = TT.VOID then .ok []
  else if usesGoMap p.keyType then .ok (p.m.getD [])
  else if p.keyType = TT.BINARY ∨ p.keyType = TT.STRUCT ∨ p.keyType = TT.LIST ∨ p.keyType = TT.SET then .ok p.l
  else .panic

/-- `Keys` and `Values`, tmap.go:750-770: `make` for `Len` elements, of which as many
are assigned as iteration delivers; the orders of two iterations need not agree. -/
def listed (p : TMap) (f : Dyn × Dyn → Dyn) : Res (List Dyn) := do
  if p.len < 0 then .panic
  else
    let es ← p.entries
    if (es.length : Int) > p.len then .panic
    else return es.map f ++ List.replicate (p.len.toNat - es.length) .nil

/-- `Keys`, tmap.go:750-759. -/
def keys (p : TMap) : Res (List Dyn) := p.listed (·.1)
/-- `Values`, tmap.go:761-770. -/
def vals (p : TMap) : Res (List Dyn) := p.listed (·.2)

end TMap

/-! ## Iteration over a channel -/

/-- The goroutine behind `Iter`, tlist.go:126-137 (and tmap.go:568-734): the elements it
still has to send, and whether it has closed the channel and ended.  The channel has
no buffer: a send waits for a receive. -/
structure Sender where
  rest : List Dyn
  ended : Bool

namespace Sender

/-- Everything the goroutine can do without a receiver: close the channel after the
last element. -/
def idle (s : Sender) : Sender := if s.rest.isEmpty then { s with ended := true } else s

/-- `Iter`. -/
def iter (l : List Dyn) : Sender := idle ⟨l, false⟩

/-- A receive: the next element, or none from the closed channel. -/
def receive (s : Sender) : Option Dyn × Sender :=
  match s.rest with
  | [] => (none, s)
  | x :: xs => (some x, idle { s with rest := xs })

end Sender

end Thrift
