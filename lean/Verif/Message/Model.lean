/-
Model of /repo/message/message.go, /repo/message/generic.go and of the 23 /repo/message/<kind>.go
files: one interpreter per method, driven by the tables of Verif/Message/Tables.lean. Line numbers
below are those of /repo/message/association-release-response.go (ARR), the shortest file in which every
piece of the template occurs, unless another file is named; the table of each kind cites its own file.
-/
import Verif.IE.Model
import Verif.Message.Header
import Verif.Message.Tables

namespace Pfcp

/-- Value of a struct field: a possibly nil pointer, or a slice of possibly nil pointers. -/
inductive Slot where
  | one (v : Option IE)
  | many (vs : List (Option IE))
  deriving DecidableEq

/-- Zero value of a field. -/
def Slot.zero : Card → Slot
  | .one => .one none
  | .many => .many []

def Slot.card : Slot → Card
  | .one _ => .one
  | .many _ => .many

/-- `m.F = i` for a pointer field, `m.F = append(m.F, i)` for a slice field (body of the cases of the
UnmarshalBinary switch, ARR:108-111, /repo/message/association-setup-request.go:215-240). -/
def Slot.put (i : IE) : Slot → Slot
  | .one _ => .one (some i)
  | .many vs => .many (vs ++ [some i])

/-- A message: which kind it is, its `*Header` (not nil; see `MsgP` in Verif/Message/Failed.lean for messages that have lost it), its fields and `IEs`. -/
structure Msg where
  kind : Kind
  header : Header
  fields : List (FieldName × Slot)
  ies : List (Option IE)
  deriving DecidableEq

namespace Msg

/-- Reading field `n`. The model panics where the Go compiler would reject an unknown field. -/
def get (m : Msg) (n : FieldName) : Res Slot :=
  match m.fields.lookup n with
  | some s => .ok s
  | none => .panic

/-- Assigning or appending `i` to field `n`. -/
def put (m : Msg) (n : FieldName) (i : IE) : Res Msg :=
  if n ∈ m.fields.map (·.1) then
    .ok { m with fields := m.fields.map fun p => if p.1 = n then (p.1, p.2.put i) else p }
  else .panic

/-- `&Kind{}`: zero fields. The nil header pointer is never read before being set; it is represented
by a zero header. -/
def zero (k : Kind) : Msg where
  kind := k
  header := ⟨0, 0, 0, 0, 0, 0, []⟩
  fields := k.tab.fields.map fun p => (p.1, Slot.zero p.2)
  ies := []

/-! ### Lengths -/

/-- `for _, i := range m.F { l += i.MarshalLen() }`: a nil entry is dereferenced (IE.MarshalLen reads
`i.Type`, /repo/ie/ie.go:599) and panics. /repo/message/association-setup-request.go:265-270. -/
def lenMany (g : IEType → Bool) (l : Nat) : List (Option IE) → Res Nat
  | [] => .ok l
  | none :: _ => .panic
  | some i :: is => lenMany g (l + i.marshalLen g) is

/-- One field of `MarshalLen`, ARR:124-129 (pointer field: nil is skipped). -/
def lenSlot (g : IEType → Bool) (l : Nat) : Slot → Res Nat
  | .one none => .ok l
  | .one (some i) => .ok (l + i.marshalLen g)
  | .many vs => lenMany g l vs

/-- The sequence of fields of `MarshalLen`. -/
def lenFields (g : IEType → Bool) (m : Msg) : List FieldName → Nat → Res Nat
  | [], l => .ok l
  | n :: ns, l => do
    let s ← m.get n
    let l ← lenSlot g l s
    lenFields g m ns l

/-- The loop over `IEs` of `MarshalLen`, ARR:131-136: nil entries are skipped. -/
def lenSkipNil (g : IEType → Bool) (l : Nat) : List (Option IE) → Nat
  | [] => l
  | none :: is => lenSkipNil g l is
  | some i :: is => lenSkipNil g (l + i.marshalLen g) is

/-- `MarshalLen`, ARR:121-139. -/
def marshalLen (g : IEType → Bool) (m : Msg) : Res Nat := do
  let l ← lenFields g m m.kind.tab.lenOrder (m.header.marshalLen - m.header.payload.length)
  pure (lenSkipNil g l m.ies)

/-- `SetLength`: either ARR:142-144, or the hand-written sums of
/repo/message/heartbeat-request.go:142-156, heartbeat-response.go:129-140,
pfd-management-response.go and generic.go:123-129, which dereference nil entries of `IEs`. -/
def setLength (g : IEType → Bool) (m : Msg) : Res Msg := do
  match m.kind.tab.setLen with
  | none =>
    let l ← marshalLen g m
    pure { m with header := { m.header with length := UInt16.ofNat (l - 4) } }
  | some fs =>
    let l ← lenFields g m fs (m.header.marshalLen - m.header.payload.length - 4)
    let l ← lenMany g l m.ies
    pure { m with header := { m.header with length := UInt16.ofNat l } }

/-! ### Encoding -/

/-- `i.MarshalTo(m.Payload[offset:])` followed by `offset += i.MarshalLen()`, ARR:55-58. -/
def putIE (g : IEType → Bool) (i : IE) (pl : Slice) (off : Nat) : Res (Slice × Nat) :=
  if off ≤ pl.data.length then do
    let v ← i.marshalTo g ⟨pl.data.drop off, pl.spare⟩
    pure (⟨pl.data.take off ++ v.data, v.spare⟩, off + i.marshalLen g)
  else .panic

/-- Loop over a slice field of `MarshalTo`; a nil entry panics in `IE.MarshalTo`
(/repo/ie/ie.go:573 reads `i.Type`). /repo/message/association-setup-request.go:119-124. -/
def putMany (g : IEType → Bool) : List (Option IE) → Slice → Nat → Res (Slice × Nat)
  | [], pl, off => .ok (pl, off)
  | none :: _, _, _ => .panic
  | some i :: is, pl, off => do
    let (pl, off) ← putIE g i pl off
    putMany g is pl off

/-- One field of `MarshalTo`, ARR:54-59. -/
def putSlot (g : IEType → Bool) : Slot → Slice → Nat → Res (Slice × Nat)
  | .one none, pl, off => .ok (pl, off)
  | .one (some i), pl, off => putIE g i pl off
  | .many vs, pl, off => putMany g vs pl off

/-- The sequence of fields of `MarshalTo`. -/
def putFields (g : IEType → Bool) (m : Msg) : List FieldName → Slice → Nat → Res (Slice × Nat)
  | [], pl, off => .ok (pl, off)
  | n :: ns, pl, off => do
    let s ← m.get n
    let (pl, off) ← putSlot g s pl off
    putFields g m ns pl off

/-- The loop over `IEs` of `MarshalTo`, ARR:67-75. -/
def putSkipNil (g : IEType → Bool) : List (Option IE) → Slice → Nat → Res (Slice × Nat)
  | [], pl, off => .ok (pl, off)
  | none :: is, pl, off => putSkipNil g is pl off
  | some i :: is, pl, off => do
    let (pl, off) ← putIE g i pl off
    putSkipNil g is pl off

/-- `MarshalTo`, ARR:47-79. Returns the message (whose header's payload and length it has set) and the
buffer. `make` with `m.MarshalLen()-m.Header.MarshalLen()` is never negative: the first starts from the
second. On an error the partial effects are dropped. -/
def marshalTo (g : IEType → Bool) (m : Msg) (b : Slice) : Res (Msg × Slice) := do
  let m := { m with header := { m.header with payload := [] } }
  let n ← marshalLen g m
  let pl := Slice.make (n - m.header.marshalLen)
  let (pl, off) ← putFields g m m.kind.tab.marshalOrder pl 0
  let (pl, _) ← putSkipNil g m.ies pl off
  let h := { m.header with payload := pl.data }.setLength
  let b ← h.marshalTo b
  pure ({ m with header := h }, b)

/-- `Marshal`, ARR:37-44, together with its effect on the message. -/
def marshalSt (g : IEType → Bool) (m : Msg) : Res (Msg × Bytes) := do
  let n ← marshalLen g m
  let (m, b) ← marshalTo g m (Slice.make n)
  pure (m, b.data)

/-- `Marshal`, ARR:37-44. -/
def marshal (g : IEType → Bool) (m : Msg) : Res Bytes := do
  let (_, b) ← marshalSt g m
  pure b

/-! ### Decoding -/

/-- One iteration of the switch loop of `UnmarshalBinary`, ARR:107-114. -/
def file (cases : List (IEType × FieldName)) (m : Msg) (i : IE) : Res Msg :=
  match cases.lookup i.typ with
  | some n => m.put n i
  | none => .ok { m with ies := m.ies ++ [some i] }

/-- The loop, ARR:106-115. -/
def fileAll (cases : List (IEType × FieldName)) (m : Msg) : List IE → Res Msg
  | [] => .ok m
  | i :: is => do
    let m ← file cases m i
    fileAll cases m is

/-- `UnmarshalBinary` into an existing message, ARR:91-118; for Generic,
/repo/message/generic.go:91-106, where `IEs` is replaced. -/
def unmarshal (g : IEType → Bool) (m : Msg) (b : Bytes) : Res Msg := do
  let h ← Header.parse b
  let m := { m with header := h }
  if h.payload.length < 2 then .ok m else do
  let ies ← parseMulti g h.payload
  match m.kind with
  | .generic => .ok { m with ies := ies.map some }
  | k => fileAll k.tab.parseSwitch m ies

/-- `message.Parse`, /repo/message/message.go:60-122 (the log line on unknown types is not modelled). -/
def parse (g : IEType → Bool) (b : Bytes) : Res Msg := do
  if b.length < 2 then .err .unexpectedEOF else do
  let t ← index b 1
  unmarshal g (zero (kindOf t)) b

/-! ### Construction -/

/-- The loop of a switch constructor, /repo/message/association-setup-request.go:40-71:
`switch i.Type` dereferences, so a nil argument panics. -/
def ctorLoop (cases : List (IEType × FieldName)) (m : Msg) : List (Option IE) → Res Msg
  | [] => .ok m
  | none :: _ => .panic
  | some i :: is => do
    let m ← file cases m i
    ctorLoop cases m is

/-- The header built by the constructor of kind `k`: session messages pass their parameters on with
S = 1, node messages fix everything but the sequence number. -/
def ctorHeader (k : Kind) (mp fo : UInt8) (seid : UInt64) (seq : UInt32) (pri : UInt8) : Header :=
  if k.tab.session then Header.new 1 fo mp 1 k.tab.msgType seid seq pri []
  else Header.new 1 0 0 0 k.tab.msgType 0 seq 0 []

/-- Composite literal `&Kind{Header: .., A: a, B: b}`: positional parameters into pointer fields. -/
def assignArgs (m : Msg) : List FieldName → List (Option IE) → Msg
  | n :: ns, a :: as =>
    assignArgs { m with fields := m.fields.map fun p => if p.1 = n then (p.1, .one a) else p } ns as
  | _, _ => m

/-- The constructor `NewKind` of any kind but Generic. `args` are the positional element parameters
(ignored by switch constructors), `ies` the variadic ones. ARR:20-34,
/repo/message/association-setup-request.go:31-75. -/
def new (g : IEType → Bool) (k : Kind) (mp fo : UInt8) (seid : UInt64) (seq : UInt32) (pri : UInt8)
    (args : List (Option IE)) (ies : List (Option IE)) : Res Msg := do
  let m := { zero k with header := ctorHeader k mp fo seid seq pri }
  match k.tab.ctor with
  | .switch cases =>
    let m ← ctorLoop cases m ies
    setLength g m
  | .args fs => setLength g { assignArgs m fs args with ies := ies }

/-- `NewGeneric`, /repo/message/generic.go:20-32. -/
def newGeneric (g : IEType → Bool) (t : UInt8) (seid : UInt64) (seq : UInt32) (ies : List (Option IE)) :
    Res Msg :=
  setLength g { zero .generic with header := Header.new 1 0 0 1 t seid seq 0 [], ies := ies }

/-- `NewGenericWithoutSEID`, /repo/message/generic.go:35-47. -/
def newGenericWithoutSEID (g : IEType → Bool) (t : UInt8) (seq : UInt32) (ies : List (Option IE)) :
    Res Msg :=
  setLength g { zero .generic with header := Header.new 1 0 0 0 t 0 seq 0 [], ies := ies }

/-- `Generic.AddIE`, /repo/message/generic.go:142-145. -/
def addIE (g : IEType → Bool) (m : Msg) (ies : List (Option IE)) : Res Msg :=
  setLength g { m with ies := m.ies ++ ies }

/-! ### Interface accessors -/

/-- `MessageType`, /repo/message/header.go:164-166. -/
def messageType (m : Msg) : UInt8 := m.header.typ

/-- `MessageTypeName`, ARR:147-149; Generic /repo/message/generic.go:132-134. -/
def typeName (m : Msg) : String :=
  match m.kind with
  | .generic => "Unknown (" ++ toString m.header.typ.toNat ++ ")"
  | k => k.tab.typeName

/-- `IsRequest`, ARR:157-159. -/
def isRequest (m : Msg) : Bool := m.kind.tab.isRequest

/-- `SEID`, ARR:152-154. -/
def seid (m : Msg) : UInt64 := m.header.seidVal

end Msg
end Pfcp
