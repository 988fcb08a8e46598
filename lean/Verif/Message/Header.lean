/- Model of the PFCP header, /repo/message/header.go. -/
import Verif.Utils

namespace Pfcp

/-- `type Header struct`, /repo/message/header.go:14-22. -/
structure Header where
  flags : UInt8
  typ : UInt8
  length : UInt16
  seid : UInt64
  seq : UInt32
  pri : UInt8
  payload : Bytes
  deriving DecidableEq, Repr

namespace Header

/-- `HasFO`, /repo/message/header.go:51-53. -/
def hasFO (h : Header) : Bool := has3rdBit h.flags
/-- `HasMP`, /repo/message/header.go:56-58. -/
def hasMP (h : Header) : Bool := has2ndBit h.flags
/-- `HasSEID`, /repo/message/header.go:61-63. -/
def hasSEID (h : Header) : Bool := has1stBit h.flags

/-- `SetLength`, /repo/message/header.go:151-156: 16-bit arithmetic throughout. -/
def setLength (h : Header) : Header :=
  let l : UInt16 := UInt16.ofNat (4 + h.payload.length)
  { h with length := if h.hasSEID then l + 8 else l }

/-- `NewHeader`, /repo/message/header.go:25-37. -/
def new (ver fo mp s mtype : UInt8) (seid : UInt64) (seq : UInt32) (pri : UInt8) (payload : Bytes) :
    Header :=
  setLength {
    flags := ((ver &&& 0x7) <<< 5) ||| (fo <<< 2) ||| (mp <<< 1) ||| s
    typ := mtype
    length := 0
    seid := seid
    seq := seq
    pri := pri
    payload := payload }

/-- `MarshalLen`, /repo/message/header.go:141-148. -/
def marshalLen (h : Header) : Nat :=
  let l := 8 + h.payload.length
  if h.hasSEID then l + 8 else l

/-- `MarshalTo`, /repo/message/header.go:75-91. -/
def marshalTo (h : Header) (b : Slice) : Res Slice := do
  let b ← b.set 0 h.flags
  let b ← b.set 1 h.typ
  let b ← b.putAt 2 4 (be16 h.length)
  let (b, offset) ← (if h.hasSEID then do
      let b ← b.putAt 4 (4 + 8) (be64 h.seid)
      pure (b, 4 + 8)
    else pure (b, 4) : Res (Slice × Nat))
  let b ← b.copyAt offset (offset + 3) (uint32To24 h.seq)
  let b ← b.set (offset + 3) h.pri
  b.copyAt (offset + 4) h.marshalLen h.payload

/-- `Marshal`, /repo/message/header.go:66-72. -/
def marshal (h : Header) : Res Bytes := do
  let b ← h.marshalTo (Slice.make h.marshalLen)
  pure b.data

/-- `ParseHeader` / `UnmarshalBinary`, /repo/message/header.go:94-138. -/
def parse (b : Bytes) : Res Header := do
  let l := b.length
  if l < 8 then .err .unexpectedEOF else do
  let flags ← index b 0
  let typ ← index b 1
  let length := dec16 (← slice b 2 4)
  let (seid, offset) ← (if has1stBit flags then
      if l < 4 + 8 then .err .unexpectedEOF
      else do
        let seid := dec64 (← slice b 4 (4 + 8))
        pure (seid, 4 + 8)
    else pure (0, 4) : Res (UInt64 × Nat))
  if l < offset + 4 then .err .unexpectedEOF else do
  let seq := uint24To32 (← slice b offset (offset + 3))
  let pri ← index b (offset + 3)
  let offset := offset + 4
  if length.toNat + offset ≠ l then do
    let payload ← slice b offset l
    pure ⟨flags, typ, length, seid, seq, pri, payload⟩
  else if l < offset + length.toNat then .err .unexpectedEOF
  else do
    let payload ← slice b offset (offset + length.toNat)
    pure ⟨flags, typ, length, seid, seq, pri, payload⟩

/-- `seid`, /repo/message/header.go:168-173 (the exported `SEID()` of the messages). -/
def seidVal (h : Header) : UInt64 := if !h.hasSEID then 0 else h.seid

/-- `SetSEID`, /repo/message/header.go:176-179. -/
def setSEID (h : Header) (seid : UInt64) : Header :=
  { h with flags := h.flags ||| 0x01, seid := seid }

/-- `SetSequenceNumber`, /repo/message/header.go:187-189. -/
def setSequenceNumber (h : Header) (seq : UInt32) : Header := { h with seq := seq }

/-- `SetMP`, /repo/message/header.go:193-196. -/
def setMP (h : Header) (mp : UInt8) : Header :=
  { h with flags := h.flags ||| ((1 : UInt8) <<< 2), pri := (mp <<< 4) &&& 0xf0 }

/-- `MP`, /repo/message/header.go:202-204. -/
def mp (h : Header) : UInt8 := (h.pri &&& 0xf0) >>> 4

/-- `Version`, /repo/message/header.go:159-161. -/
def version (_ : Header) : Nat := 1

end Header

end Pfcp
