/-
What the value accessors of /repo/ie compute from the payload of an element of their own type.

The payload of a decoded element is a slice of the received datagram, so there may be more bytes behind it; a slice
expression that exceeds the length reads them. `Leaf.run` therefore takes those bytes (`spare`).
-/
import Verif.IE.Model
import Verif.Acc.Timer
import Verif.Text.Model
import Verif.Fields.Volume
import Verif.Fields.Counters
import Verif.Fields.Addr
import Verif.Fields.Addr2
import Verif.Fields.Misc5

namespace Pfcp
open Fields

/-- A value returned by an accessor. Strings and byte slices are `bytes`; `[]*IE` is `ies`; a structured value is the
model of the corresponding `...Fields` structure. -/
inductive Val where
  | u8 (v : UInt8) | u16 (v : UInt16) | u32 (v : UInt32) | u64 (v : UInt64)
  | bytes (v : Bytes)
  /-- `net.HardwareAddr`, possibly nil. -/
  | mac (v : Option Bytes)
  /-- the text of a `net.IP` (`String()`), which is a function of these bytes; `[]` is a nil address, "<nil>". -/
  | ipText (v : Bytes)
  | duration (v : Int) | time (v : Int)
  | ies (v : List IE)
  | u16s (v : List UInt16)
  | volume (v : Volume) | volumeMeasurement (v : VolumeMeasurement)
  | numberOfUEIPAddresses (v : NumberOfUEIPAddresses) | delays (v : Delays)
  | dlFlowLevelMarking (v : DLFlowLevelMarking) | packetRate (v : PacketRate) | packetRateStatus (v : PacketRateStatus)
  | ip46 (v : IP46) | fseid (v : FSEID) | fteid (v : FTEID) | mptcpAddressInformation (v : MPTCPAddressInformation)
  | ueLinkSpecificIPAddress (v : UELinkSpecificIPAddress) | sourceIPAddress (v : SourceIPAddress)
  | ueIPAddress (v : UEIPAddress) | remoteGTPUPeer (v : RemoteGTPUPeer) | ipMulticastAddress (v : IPMulticastAddress)
  | userPlaneIPResourceInformation (v : UserPlaneIPResourceInformation)
  | headerEnrichment (v : HeaderEnrichment) | tag (v : Tag) | macAddress (v : MACAddress) | sdfFilter (v : SDFFilter)
  | outerHeaderCreation (v : OuterHeaderCreation) | pmfAddressInformation (v : PMFAddressInformation)
  | redirectInformation (v : RedirectInformation) | userID (v : UserID) | traceInformation (v : TraceInformation)
  | macAddresses (v : MACAddresses) | pfdContents (v : PFDContents)

/-- The expressions that accessors return for an element of their own type. -/
inductive Leaf where
  /-- `return ParseMultiIEs(i.Payload)` -/
  | ies
  /-- `return i.ValueAsUint8()` and so on -/
  | u8 | u16 | u32 | u64 | str | fqdn
  /-- `return i.valueAs3GPPTimestamp()` -/
  | timestamp
  /-- `return i.Payload, nil` -/
  | payload
  /-- `if len(i.Payload) < n { return nil, io.ErrUnexpectedEOF }; return i.Payload, nil` -/
  | payloadMin (n : Nat)
  /-- `time.Duration(binary.BigEndian.Uint32(i.Payload[0:4])) * time.Second` -/
  | sec32
  /-- the same after `len(i.Payload) < 4` was refused -/
  | sec32Min
  /-- `time.Duration(binary.BigEndian.Uint32(i.Payload[0:4])) * time.Millisecond` -/
  | ms32
  /-- `time.Duration(binary.BigEndian.Uint16(i.Payload[0:2])) * time.Second` -/
  | sec16
  /-- `time.Duration(binary.BigEndian.Uint64(i.Payload[0:8]))` -/
  | ns64
  /-- the unit switch of /repo/ie/timer.go:62-79 -/
  | timer
  /-- the same after `len(i.Payload) < 1` was refused -/
  | timerMin
  /-- /repo/ie/additional-usage-reports-information.go:25-30 -/
  | usageReports
  /-- /repo/ie/dl-buffering-suggested-packet-count.go:24-32 -/
  | packetCount
  /-- /repo/ie/downlink-data-notification-delay.go:24 -/
  | delay50
  /-- `if len(i.Payload) < n { return 0, io.ErrUnexpectedEOF }; return i.Payload[k], nil` -/
  | byteMin (n k : Nat)
  /-- `return i.Payload[0] & m, nil` -/
  | mask (m : UInt8)
  /-- the same after `len(i.Payload) < 1` was refused -/
  | maskMin (m : UInt8)
  /-- `errors.New("cannot determine which value to return ...")` -/
  | ambiguous
  /-- /repo/ie/failed-rule-id.go:55-77 -/
  | failedRule
  /-- /repo/ie/flow-information.go:93-98 -/
  | flowDescription
  /-- /repo/ie/fq-csid.go:74 -/
  | nodeIDType
  /-- /repo/ie/fq-csid.go:88-101 -/
  | nodeAddress
  /-- /repo/ie/fq-csid.go:115-130 -/
  | csids
  /-- `binary.BigEndian.Uint32(i.Payload[8:12])` -/
  | exponent
  /-- `i.Payload[:n]` -/
  | prefix (n : Nat)
  /-- /repo/ie/node-id.go:81-112 -/
  | nodeID
  /-- /repo/ie/tsn-bridge-id.go:42-51 -/
  | tsnBridgeID
  /-- /repo/ie/c-tag.go, s-tag.go: the tag inside a MAC address list -/
  | ctagOf | stagOf
  /-- `ParseXxxFields(i.Payload)` -/
  | volume | volumeMeasurement | numberOfUEIPAddresses | delays | dlFlowLevelMarking | packetRate | packetRateStatus
  | ip46 | fseid | fteid | mptcpAddressInformation | ueLinkSpecificIPAddress | sourceIPAddress | ueIPAddress
  | remoteGTPUPeer | ipMulticastAddress | userPlaneIPResourceInformation | headerEnrichment | tag | macAddress
  | sdfFilter | outerHeaderCreation | pmfAddressInformation | redirectInformation | userID | traceInformation
  | macAddresses | pfdContents
  deriving DecidableEq, Repr

/-- `binary.BigEndian.Uint32(s[lo:lo+4])` -/
def Slice.u32At (s : Slice) (lo : Nat) : Res UInt32 := s.sub lo (lo + 4) >>= fun x => .ok (dec32 x.data)
/-- `binary.BigEndian.Uint16(s[lo:lo+2])` -/
def Slice.u16At (s : Slice) (lo : Nat) : Res UInt16 := s.sub lo (lo + 2) >>= fun x => .ok (dec16 x.data)
/-- `binary.BigEndian.Uint64(s[lo:lo+8])` -/
def Slice.u64At (s : Slice) (lo : Nat) : Res UInt64 := s.sub lo (lo + 8) >>= fun x => .ok (dec64 x.data)

/-- The loop of `IE.CSIDs`, /repo/ie/fq-csid.go:126-129, whose condition is the wrong way round. Each round reads two
bytes at `offset`; running out of fuel counts as a panic. -/
def csidLoop (s : Slice) : Nat → Nat → Res (List UInt16)
  | 0, _ => .panic
  | fuel + 1, offset =>
    if offset + 2 > s.len then do
      let v ← s.u16At offset
      let r ← csidLoop s fuel (offset + 2)
      pure (v :: r)
    else .ok []

/-- `IE.CSIDs` on an FQ-CSID element, /repo/ie/fq-csid.go:115-130. -/
def csidsOf (s : Slice) : Res (List UInt16) := do
  let b ← s.idx 0
  let n := (b >>> 4) &&& 0x0f
  if n = 0 ∨ n = 2 then csidLoop s (s.cap + 1) 5
  else if n = 1 then csidLoop s (s.cap + 1) 17
  else .err .malformed

/-- `IE.NodeAddress` on an FQ-CSID element, /repo/ie/fq-csid.go:88-101. -/
def nodeAddressOf (s : Slice) : Res Bytes := do
  let b ← s.idx 0
  let n := (b >>> 4) &&& 0x0f
  if n = 0 ∨ n = 2 then
    if s.len < 6 then .err .unexpectedEOF else s.sub 1 5 >>= fun x => .ok x.data
  else if n = 1 then
    if s.len < 18 then .err .unexpectedEOF else s.sub 1 17 >>= fun x => .ok x.data
  else .err .malformed

/-- `IE.FailedRuleID`, /repo/ie/failed-rule-id.go:55-77. -/
def failedRuleOf (s : Slice) : Res UInt32 :=
  if s.len < 1 then .err .unexpectedEOF else do
  let t ← s.idx 0
  if t = 0 then
    if s.len < 3 then .err .unexpectedEOF else s.u16At 1 >>= fun v => .ok v.toUInt32
  else if t = 1 ∨ t = 2 ∨ t = 3 then
    if s.len < 5 then .err .unexpectedEOF else s.u32At 1
  else if t = 4 then
    if s.len < 2 then .err .unexpectedEOF else s.idx 1 >>= fun v => .ok v.toUInt32
  else .ok 0

/-- `IE.FlowDescription`, /repo/ie/flow-information.go:93-98. The bound `3+l` is a uint16 sum. -/
def flowDescriptionOf (s : Slice) : Res Bytes := do
  let l ← s.u16At 1
  if s.len < l.toNat then .err .unexpectedEOF
  else s.sub 3 (3 + l : UInt16).toNat >>= fun x => .ok x.data

/-- The loop and the final join of `IE.NodeID` for a domain name, /repo/ie/node-id.go:91-109, is that of `DecodeFQDN`
(/repo/internal/utils/utils.go:153-173) on the payload without its first byte. -/
def nodeIDOf (s : Slice) : Res Val :=
  if s.len < 2 then .err .unexpectedEOF else do
  let t ← s.idx 0
  let r ← s.subFrom 1
  if t = 0 then pure (.ipText (to4 r.data))
  else if t = 1 then pure (.ipText (to16 r.data))
  else if t = 2 then Text.decodeFQDN r.data >>= fun v => .ok (.bytes v)
  else .err (.invalidNodeID t)

/-- `IE.TSNBridgeID`, /repo/ie/tsn-bridge-id.go:42-51. -/
def tsnBridgeIDOf (s : Slice) : Res (Option Bytes) := do
  let b ← s.idx 0
  if !has1stBit b then .ok none
  else if s.len ≠ 7 ∧ s.len < 9 then .err .unexpectedEOF
  else if s.len = 7 then s.sub 1 7 >>= fun x => .ok (some x.data)
  else s.sub 1 9 >>= fun x => .ok (some x.data)

/-- The value computed from element `i`; `sp` are the bytes behind its payload. The tag slices of a MAC address list
are passed to the tag decoder, which does not look behind them (`C42_Tag`). -/
def Leaf.run (g : IEType → Bool) (l : Leaf) (i : IE) (sp : Bytes) : Res Val :=
  let s : Slice := ⟨i.payload, sp⟩
  match l with
  | .ies => parseMulti g i.payload >>= fun v => .ok (.ies v)
  | .u8 => i.valueAsUint8 g >>= fun v => .ok (.u8 v)
  | .u16 => i.valueAsUint16 g >>= fun v => .ok (.u16 v)
  | .u32 => i.valueAsUint32 g >>= fun v => .ok (.u32 v)
  | .u64 => i.valueAsUint64 g >>= fun v => .ok (.u64 v)
  | .str => i.valueAsString g >>= fun v => .ok (.bytes v)
  | .fqdn => if g i.typ then .err (.invalidTypeError i.typ) else Text.decodeFQDN i.payload >>= fun v => .ok (.bytes v)
  | .timestamp =>
    if g i.typ then .err (.invalidTypeError i.typ)
    else if s.len < 4 then .err .unexpectedEOF
    else s.u32At 0 >>= fun v => .ok (.time (timestampValue v))
  | .payload => .ok (.bytes i.payload)
  | .payloadMin n => if s.len < n then .err .unexpectedEOF else .ok (.bytes i.payload)
  | .sec32 => s.u32At 0 >>= fun v => .ok (.duration (v.toNat * second))
  | .sec32Min => if s.len < 4 then .err .unexpectedEOF else s.u32At 0 >>= fun v => .ok (.duration (v.toNat * second))
  | .ms32 => s.u32At 0 >>= fun v => .ok (.duration (v.toNat * 1000000))
  | .sec16 => s.u16At 0 >>= fun v => .ok (.duration (v.toNat * second))
  | .ns64 => s.u64At 0 >>= fun v => .ok (.duration v.toInt64.toInt)
  | .timer => s.idx 0 >>= fun b => .ok (.duration (timerValue b))
  | .timerMin => if s.len < 1 then .err .unexpectedEOF else s.idx 0 >>= fun b => .ok (.duration (timerValue b))
  | .usageReports => if s.len < 2 then .err .unexpectedEOF else s.u16At 0 >>= fun v => .ok (.u16 (v &&& 0x7fff))
  | .packetCount =>
    if i.length = 1 then s.idx 0 >>= fun b => .ok (.u16 b.toUInt16)
    else if 2 ≤ i.length then i.valueAsUint16 g >>= fun v => .ok (.u16 v)
    else .err .unexpectedEOF
  | .delay50 => s.idx 0 >>= fun b => .ok (.duration (b.toNat * 50000000))
  | .byteMin n k => if s.len < n then .err .unexpectedEOF else s.idx k >>= fun b => .ok (.u8 b)
  | .mask m => s.idx 0 >>= fun b => .ok (.u8 (b &&& m))
  | .maskMin m => if s.len < 1 then .err .unexpectedEOF else s.idx 0 >>= fun b => .ok (.u8 (b &&& m))
  | .ambiguous => .err .ambiguous
  | .failedRule => failedRuleOf s >>= fun v => .ok (.u32 v)
  | .flowDescription => flowDescriptionOf s >>= fun v => .ok (.bytes v)
  | .nodeIDType => s.idx 0 >>= fun b => .ok (.u8 ((b >>> 4) &&& 0x0f))
  | .nodeAddress => nodeAddressOf s >>= fun v => .ok (.bytes v)
  | .csids => csidsOf s >>= fun v => .ok (.u16s v)
  | .exponent => s.u32At 8 >>= fun v => .ok (.u32 v)
  | .prefix n => s.sub 0 n >>= fun x => .ok (.bytes x.data)
  | .nodeID => nodeIDOf s
  | .tsnBridgeID => tsnBridgeIDOf s >>= fun v => .ok (.mac v)
  | .ctagOf => MACAddresses.codec.parse s >>= fun x => Tag.codec.parse ⟨x.ctag, []⟩ >>= fun v => .ok (.tag v)
  | .stagOf => MACAddresses.codec.parse s >>= fun x => Tag.codec.parse ⟨x.stag, []⟩ >>= fun v => .ok (.tag v)
  | .volume => Volume.codec.parse s >>= fun v => .ok (.volume v)
  | .volumeMeasurement => VolumeMeasurement.codec.parse s >>= fun v => .ok (.volumeMeasurement v)
  | .numberOfUEIPAddresses => NumberOfUEIPAddresses.codec.parse s >>= fun v => .ok (.numberOfUEIPAddresses v)
  | .delays => Delays.codec.parse s >>= fun v => .ok (.delays v)
  | .dlFlowLevelMarking => DLFlowLevelMarking.codec.parse s >>= fun v => .ok (.dlFlowLevelMarking v)
  | .packetRate => PacketRate.codec.parse s >>= fun v => .ok (.packetRate v)
  | .packetRateStatus => PacketRateStatus.codec.parse s >>= fun v => .ok (.packetRateStatus v)
  | .ip46 => IP46.codec.parse s >>= fun v => .ok (.ip46 v)
  | .fseid => FSEID.codec.parse s >>= fun v => .ok (.fseid v)
  | .fteid => FTEID.codec.parse s >>= fun v => .ok (.fteid v)
  | .mptcpAddressInformation => MPTCPAddressInformation.codec.parse s >>= fun v => .ok (.mptcpAddressInformation v)
  | .ueLinkSpecificIPAddress => UELinkSpecificIPAddress.codec.parse s >>= fun v => .ok (.ueLinkSpecificIPAddress v)
  | .sourceIPAddress => SourceIPAddress.codec.parse s >>= fun v => .ok (.sourceIPAddress v)
  | .ueIPAddress => UEIPAddress.codec.parse s >>= fun v => .ok (.ueIPAddress v)
  | .remoteGTPUPeer => RemoteGTPUPeer.codec.parse s >>= fun v => .ok (.remoteGTPUPeer v)
  | .ipMulticastAddress => IPMulticastAddress.codec.parse s >>= fun v => .ok (.ipMulticastAddress v)
  | .userPlaneIPResourceInformation =>
    UserPlaneIPResourceInformation.codec.parse s >>= fun v => .ok (.userPlaneIPResourceInformation v)
  | .headerEnrichment => HeaderEnrichment.codec.parse s >>= fun v => .ok (.headerEnrichment v)
  | .tag => Tag.codec.parse s >>= fun v => .ok (.tag v)
  | .macAddress => MACAddress.codec.parse s >>= fun v => .ok (.macAddress v)
  | .sdfFilter => SDFFilter.codec.parse s >>= fun v => .ok (.sdfFilter v)
  | .outerHeaderCreation => OuterHeaderCreation.codec.parse s >>= fun v => .ok (.outerHeaderCreation v)
  | .pmfAddressInformation => PMFAddressInformation.codec.parse s >>= fun v => .ok (.pmfAddressInformation v)
  | .redirectInformation => RedirectInformation.codec.parse s >>= fun v => .ok (.redirectInformation v)
  | .userID => UserID.codec.parse s >>= fun v => .ok (.userID v)
  | .traceInformation => TraceInformation.codec.parse s >>= fun v => .ok (.traceInformation v)
  | .macAddresses => MACAddresses.codec.parse s >>= fun v => .ok (.macAddresses v)
  | .pfdContents => PFDContents.codec.parse s >>= fun v => .ok (.pfdContents v)

end Pfcp
