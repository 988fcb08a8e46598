/-
Model of the text helpers of /repo/internal/utils/utils.go: swapped-nibble digit strings, PLMN identities, domain
names. A Go string is the list of its bytes. `encoding/hex` and `strings.Split`/`strings.Join` are written out from
their documentation.
-/
import Verif.Fields.Prim

namespace Pfcp
namespace Text

/-- `encoding/hex`: the value of a hexadecimal digit. -/
def hexVal (c : UInt8) : Option UInt8 :=
  if 48 ≤ c ∧ c ≤ 57 then some (c - 48)
  else if 97 ≤ c ∧ c ≤ 102 then some (c - 97 + 10)
  else if 65 ≤ c ∧ c ≤ 70 then some (c - 65 + 10)
  else none

/-- `encoding/hex`: the (lower-case) digit of a value below 16. -/
def hexDigit (n : UInt8) : UInt8 := if n < 10 then 48 + n else 97 + (n - 10)

/-- `hex.DecodeString` (Go standard library); its two kinds of error are not told apart. -/
def hexDecode : Bytes → Res Bytes
  | [] => .ok []
  | [_] => .err .hexDecode
  | a :: b :: r =>
    match hexVal a, hexVal b with
    | some x, some y => hexDecode r >>= fun t => .ok ((x <<< 4 ||| y) :: t)
    | _, _ => .err .hexDecode

/-- `hex.EncodeToString` (Go standard library). -/
def hexEncode : Bytes → Bytes
  | [] => []
  | x :: r => hexDigit (x >>> 4) :: hexDigit (x &&& 0x0f) :: hexEncode r

/-- The two halves of an octet exchanged, /repo/internal/utils/utils.go:53. -/
def flip (x : UInt8) : UInt8 := ((x >>> 4) &&& (0xf : UInt8)) + ((x <<< 4) &&& (0xf0 : UInt8))

/-- `swap`, /repo/internal/utils/utils.go:50-57. -/
def swap (raw : Bytes) : Bytes := raw.map flip

/-- `StrToSwappedBytes`, /repo/internal/utils/utils.go:18-31. -/
def strToSwappedBytes (s filler : Bytes) : Res Bytes := do
  let raw ← if s.length % 2 = 0 then hexDecode s else hexDecode (s ++ filler)
  pure (swap raw)

/-- `SwappedBytesToStr`, /repo/internal/utils/utils.go:37-48. The slice expression `s[:len(s)-1]` is on a non-empty
string and cannot panic. -/
def swappedBytesToStr (raw : Bytes) (cutLastDigit : Bool) : Bytes :=
  if raw.length = 0 then []
  else
    let s := hexEncode (swap raw)
    if cutLastDigit then s.take (s.length - 1) else s

/-- The string "f". -/
def fillerF : Bytes := [102]

/-- `EncodePLMN`, /repo/internal/utils/utils.go:90-112. -/
def encodePLMN (mcc mnc : Bytes) : Res Bytes := do
  let c ← strToSwappedBytes mcc fillerF
  let n ← strToSwappedBytes mnc fillerF
  if mnc.length = 2 then pure (c ++ n)
  else do
    let b0 ← index c 0
    let c1 ← index c 1
    let n1 ← index n 1
    let n0 ← index n 0
    pure [b0, ((c1 &&& (0x0f : UInt8)) ||| ((n1 <<< (4 : UInt8)) &&& (0xf0 : UInt8)) : UInt8), n0]

/-- `DecodePLMN`, /repo/internal/utils/utils.go:115-124; the error result is always nil. `string(raw[i])` is the string
of one digit. -/
def decodePLMN (b : Bytes) : Res (Bytes × Bytes) := do
  let raw := hexEncode b
  let m1 ← index raw 1
  let m0 ← index raw 0
  let m3 ← index raw 3
  let n5 ← index raw 5
  let n4 ← index raw 4
  let r2 ← index raw 2
  pure ([m1, m0, m3], if r2 ≠ 102 then [n5, n4] ++ [r2] else [n5, n4])

/-- `ParseECI`, /repo/internal/utils/utils.go:127-133. -/
def parseECI (eci : UInt32) : UInt32 × UInt8 :=
  match be32 eci with
  | [b0, b1, b2, b3] => (dec32 [0, b0, b1, b2], b3)
  | _ => (0, 0)

/-- `strings.Split(s, ".")` (Go standard library). -/
def splitDot : Bytes → List Bytes
  | [] => [[]]
  | c :: r =>
    if c = 46 then [] :: splitDot r
    else match splitDot r with
      | l :: ls => (c :: l) :: ls
      | [] => [[c]]

/-- `strings.Join(ls, ".")` (Go standard library). -/
def joinDot : List Bytes → Bytes
  | [] => []
  | [l] => l
  | l :: ls => l ++ 46 :: joinDot ls

end Text

/-- `copy(b[offset:], bs)`, then `offset += len(bs)`. -/
def W.spill (bs : Bytes) : W := fun s o => s.copyAt o s.len bs >>= fun s => .ok (s, o + bs.length)

namespace Text

/-- The loop of `EncodeFQDN` over the labels, /repo/internal/utils/utils.go:141-146. -/
def encodeLabels : List Bytes → W
  | [] => W.nop
  | l :: ls => W.u8 (UInt8.ofNat l.length) ;; W.spill l ;; encodeLabels ls

/-- `EncodeFQDN`, /repo/internal/utils/utils.go:137-149. -/
def encodeFQDN (fqdn : Bytes) : Res Bytes := (encodeLabels (splitDot fqdn)).marshal (fqdn.length + 1)

/-- The loop of `DecodeFQDN`, /repo/internal/utils/utils.go:160-170, on a slice without spare bytes. Running out of
fuel counts as a panic. -/
def decodeLabels (b : Bytes) : Nat → Nat → Res (List Bytes)
  | 0, _ => .panic
  | fuel + 1, offset =>
    if b.length ≤ offset then .ok []
    else do
      let l ← index b offset
      if offset + l.toNat + 1 > b.length then pure []
      else do
        let x ← slice b (offset + 1) (offset + l.toNat + 1)
        let r ← decodeLabels b fuel (offset + (l.toNat + 1))
        pure (x :: r)

/-- `DecodeFQDN`, /repo/internal/utils/utils.go:153-173. -/
def decodeFQDN (b : Bytes) : Res Bytes := do
  let ls ← decodeLabels b (b.length + 1) 0
  pure (joinDot ls)

end Text
end Pfcp
