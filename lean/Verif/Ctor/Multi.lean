/-
The constructors of /repo/ie that make an element of several values without a `...Fields` structure, and the accessors
that return a part of what another accessor returns.

A payload made with `make` and filled with `copy` and `PutUintN` is written down as the concatenation it becomes, where
the sizes are constants or lengths of the arguments and nothing can be cut off; where something can, the slice
operations are kept.
-/
import Verif.Ctor.Model
import Verif.Acc.Model
import Verif.Utils

namespace Pfcp
open Fields

/-! ## Constructors -/

/-- `NewAccessAvailabilityInformation`, /repo/ie/access-availability-information.go:20-22. In Go, `|` binds weaker than `&`. -/
def newAccessAvailabilityInformation (status atype : UInt8) : IE :=
  IE.new T.AccessAvailabilityInformation [((status &&& 0x03) <<< 2) ||| (atype &&& 0x03)]

/-- `NewAdditionalUsageReportsInformation`, /repo/ie/additional-usage-reports-information.go:13-18. -/
def newAdditionalUsageReportsInformation (num : UInt16) : IE :=
  if num = 0 then IE.new T.AdditionalUsageReportsInformation (be16 num)
  else IE.new T.AdditionalUsageReportsInformation (be16 (num ||| 0x8000))

/-- `NewDLBufferingSuggestedPacketCount`, /repo/ie/dl-buffering-suggested-packet-count.go:13-18. -/
def newDLBufferingSuggestedPacketCount (count : UInt16) : IE :=
  if count ≤ 255 then IE.new T.DLBufferingSuggestedPacketCount [count.toUInt8]
  else IE.new T.DLBufferingSuggestedPacketCount (be16 count)

/-- `NewFailedRuleID`, /repo/ie/failed-rule-id.go:22-39. -/
def newFailedRuleID (typ : UInt8) (id : UInt32) : IE :=
  if typ = 0 then IE.new T.FailedRuleID (typ :: be16 id.toUInt16)
  else if typ = 1 ∨ typ = 2 ∨ typ = 3 then IE.new T.FailedRuleID (typ :: be32 id)
  else if typ = 4 then IE.new T.FailedRuleID [typ, id.toUInt8]
  else IE.new T.FailedRuleID [typ]

/-- `NewFlowInformation`, /repo/ie/flow-information.go:21-31. -/
def newFlowInformation (dir : UInt8) (desc : Bytes) : IE :=
  IE.new T.FlowInformation (dir :: (be16 (UInt16.ofNat desc.length) ++ desc))

/-- `NewForwardingPolicy`, /repo/ie/forwarding-policy.go:10-18. -/
def newForwardingPolicy (id : Bytes) : IE := IE.new T.ForwardingPolicy (UInt8.ofNat id.length :: id)

/-- `NewGateStatus`, /repo/ie/gate-status.go:14-16. -/
def newGateStatus (ul dl : UInt8) : IE := IE.new T.GateStatus [(ul <<< 2) ||| dl]

/-- `NewGBR`, /repo/ie/gbr.go:14-19. -/
def newGBR (ul dl : UInt64) : IE := IE.new T.GBR (uint64To40 ul ++ uint64To40 dl)

/-- `NewMBR`, /repo/ie/mbr.go:14-19. -/
def newMBR (ul dl : UInt64) : IE := IE.new T.MBR (uint64To40 ul ++ uint64To40 dl)

/-- `NewMultiplier`, /repo/ie/multiplier.go:13-19. -/
def newMultiplier (val : UInt64) (exp : UInt32) : IE := IE.new T.Multiplier (be64 val ++ be32 exp)

/-- `NewNFInstanceID`, /repo/ie/nf-instance-id.go:12-14; the slice expression may panic. -/
def newNFInstanceID (id : Slice) : Res IE := id.sub 0 16 >>= fun x => .ok (IE.new T.NFInstanceID x.data)

/-- `NewOuterHeaderRemoval`, /repo/ie/outer-header-removal.go:10-12. -/
def newOuterHeaderRemoval (desc ext : UInt8) : IE :=
  IE.new T.OuterHeaderRemoval (be16 ((desc.toUInt16 <<< 8) ||| ext.toUInt16))

/-- `NewSNSSAI`, /repo/ie/s-nssai.go:14-19. -/
def newSNSSAI (sst : UInt8) (sd : UInt32) : IE := IE.new T.SNSSAI (sst :: uint32To24 sd)

/-- `NewTimeQuotaMechanism`, /repo/ie/time-quota-mechanism.go:19-25. -/
def newTimeQuotaMechanism (f : SecondsConv) (btit : UInt8) (bti : Int) : IE :=
  IE.new T.TimeQuotaMechanism ((btit &&& 0x03) :: be32 (f.u32 bti))

/-- `NewTSNBridgeID`, /repo/ie/tsn-bridge-id.go:13-22; `none` is a nil address. -/
def newTSNBridgeID : Option Bytes → IE
  | none => IE.new T.TSNBridgeID [0x00]
  | some mac => IE.new T.TSNBridgeID (0x01 :: mac)

/-- `NewUEIPAddressPoolIdentity`, /repo/ie/ue-ip-address-pool-identity.go:13-21. -/
def newUEIPAddressPoolIdentity (id : Bytes) : IE :=
  IE.new T.UEIPAddressPoolIdentity (be16 (UInt16.ofNat id.length) ++ id)

/-- The loop of `NewUPFunctionFeatures`, /repo/ie/up-function-features.go:19-24: `ie.Payload[i] = feature` until `i > 3`. -/
def featureLoop : List UInt8 → Nat → Slice → Res Slice
  | [], _, s => .ok s
  | f :: fs, i, s => if i > 3 then .ok s else s.set i f >>= fun s => featureLoop fs (i + 1) s

/-- `NewUPFunctionFeatures`, /repo/ie/up-function-features.go:10-27. The length field is set before the octets are. -/
def newUPFunctionFeatures (features : List UInt8) : Res IE :=
  let s := Slice.make (if features.length ≥ 3 then 4 else 2)
  featureLoop features 0 s >>= fun r => .ok { IE.new T.UPFunctionFeatures s.data with payload := r.data }

/-- `NewFQCSID`, /repo/ie/fq-csid.go:22-52. `net.ParseIP` of the address is not modelled: `ip` is its result, `none` for
nil, otherwise 16 octets. `to4` of these is empty if the address is no IPv4 address. Result `ok none` is nil. -/
def newFQCSID (nodeAddr : Bytes) (ip : Option Bytes) (csids : List UInt16) : Res (Option IE) :=
  let make (nid : Bytes) (ntype : UInt8) : IE :=
    IE.new T.FQCSID (((((ntype <<< 4) &&& 0xf0) ||| (UInt8.ofNat csids.length &&& 0x0f)) : UInt8) ::
      (nid ++ csids.flatMap be16))
  match ip with
  | none =>
    match Text.hexDecode nodeAddr with
    | .ok nid => .ok (some (make nid 2))
    | .err _ => .ok none
    | .panic => .panic
  | some a => if to4 a ≠ [] then .ok (some (make (to4 a) 0)) else .ok (some (make a 1))

/-- The domain name branch of `NewNodeID` and `NewNodeIDHeuristic`, /repo/ie/node-id.go:39-41 and 68-70. `copy` into the
payload without its first octet stops where that ends. -/
def nodeIDName (fqdn : Bytes) : Res IE :=
  Text.encodeFQDN fqdn >>= fun e =>
  (Slice.make (2 + fqdn.length)).set 0 2 >>= fun s =>
  s.copyAt 1 s.len e >>= fun s => .ok (IE.new T.NodeID s.data)

/-- `NewNodeID`, /repo/ie/node-id.go:26-47. `parseIP` stands for `net.ParseIP` (`none` for nil, otherwise 16 octets), which
is not modelled. `To4` and `To16` of nil are nil and `copy` of nil copies nothing. Result `ok none` is nil. -/
def newNodeID (parseIP : Bytes → Option Bytes) (ipv4 ipv6 fqdn : Bytes) : Res (Option IE) :=
  if ipv4 ≠ [] then
    (Slice.make 5).set 0 0 >>= fun s =>
    s.copyAt 1 s.len (to4 ((parseIP ipv4).getD [])) >>= fun s => .ok (some (IE.new T.NodeID s.data))
  else if ipv6 ≠ [] then
    (Slice.make 17).set 0 1 >>= fun s =>
    s.copyAt 1 s.len (to16 ((parseIP ipv6).getD [])) >>= fun s => .ok (some (IE.new T.NodeID s.data))
  else if fqdn ≠ [] then nodeIDName fqdn >>= fun i => .ok (some i)
  else .ok none

/-- `NewNodeIDHeuristic`, /repo/ie/node-id.go:50-74. -/
def newNodeIDHeuristic (parseIP : Bytes → Option Bytes) (nodeID : Bytes) : Res (Option IE) :=
  if nodeID = [] then .ok none
  else
    match parseIP nodeID with
    | some ip =>
      if to4 ip ≠ [] then
        (Slice.make 5).set 0 0 >>= fun s =>
        s.copyAt 1 s.len (to4 ip) >>= fun s => .ok (some (IE.new T.NodeID s.data))
      else
        (Slice.make 17).set 0 1 >>= fun s =>
        s.copyAt 1 s.len (to16 ip) >>= fun s => .ok (some (IE.new T.NodeID s.data))
    | none => nodeIDName nodeID >>= fun i => .ok (some i)

/-! ## Accessors -/

/-- The value of an accessor that returns `uint8`; another kind of value cannot occur in Go and counts as a panic
(`C55_kinds` shows that it does not). -/
def asU8 : Res Val → Res UInt8
  | .ok (.u8 v) => .ok v
  | .ok _ => .panic
  | .err e => .err e
  | .panic => .panic

/-- The same for `[]byte` and `string`. -/
def asBytes : Res Val → Res Bytes
  | .ok (.bytes v) => .ok v
  | .ok _ => .panic
  | .err e => .err e
  | .panic => .panic

/-- The same for `[]*IE`. -/
def asIEs : Res Val → Res (List IE)
  | .ok (.ies v) => .ok v
  | .ok _ => .panic
  | .err e => .err e
  | .panic => .panic

/-- The same for `*FTEIDFields`. -/
def asFTEID : Res Val → Res FTEID
  | .ok (.fteid v) => .ok v
  | .ok _ => .panic
  | .err e => .err e
  | .panic => .panic

section
variable (g : IEType → Bool) (mem : IE → Bytes)

/-- `IE.AvailabilityStatus`, /repo/ie/access-availability-information.go:47-54. -/
def availabilityStatus (i : IE) : Res UInt8 :=
  asU8 (Acc.AccessAvailabilityInformation.call g mem i) >>= fun v => .ok ((v >>> 2) &&& 0x03)

/-- `IE.AccessType`, /repo/ie/access-availability-information.go:57-64. -/
def accessType (i : IE) : Res UInt8 :=
  asU8 (Acc.AccessAvailabilityInformation.call g mem i) >>= fun v => .ok (v &&& 0x03)

/-- `IE.GateStatusUL`, /repo/ie/gate-status.go:51-58. -/
def gateStatusUL (i : IE) : Res UInt8 :=
  asU8 (Acc.GateStatus.call g mem i) >>= fun v => .ok ((v >>> 2) &&& 0x03)

/-- `IE.GateStatusDL`, /repo/ie/gate-status.go:61-68. -/
def gateStatusDL (i : IE) : Res UInt8 :=
  asU8 (Acc.GateStatus.call g mem i) >>= fun v => .ok (v &&& 0x03)

/-- `IE.GateStatusULDL`, /repo/ie/gate-status.go:71-78. -/
def gateStatusULDL (i : IE) : Res (UInt8 × UInt8) :=
  asU8 (Acc.GateStatus.call g mem i) >>= fun v => .ok ((v >>> 2) &&& 0x03, v &&& 0x03)

/-- `utils.Uint40To64(v[lo:lo+5])`, /repo/ie/mbr.go:63, 72 and /repo/ie/gbr.go:63, 72; the capacity of `v` beyond its length is not known here, so `sp` is what may be there. -/
def rate40 (v sp : Bytes) (lo : Nat) : Res UInt64 :=
  Slice.sub ⟨v, sp⟩ lo (lo + 5) >>= fun x => .ok (uint40To64 x.data)

/-- `IE.MBRUL`, /repo/ie/mbr.go:58-64. -/
def mbrUL (sp : Bytes) (i : IE) : Res UInt64 := asBytes (Acc.MBR.call g mem i) >>= fun v => rate40 v sp 0
/-- `IE.MBRDL`, /repo/ie/mbr.go:67-73. -/
def mbrDL (sp : Bytes) (i : IE) : Res UInt64 := asBytes (Acc.MBR.call g mem i) >>= fun v => rate40 v sp 5

/-- `IE.GBRUL`, /repo/ie/gbr.go:58-64. -/
def gbrUL (sp : Bytes) (i : IE) : Res UInt64 := asBytes (Acc.GBR.call g mem i) >>= fun v => rate40 v sp 0
/-- `IE.GBRDL`, /repo/ie/gbr.go:67-73. -/
def gbrDL (sp : Bytes) (i : IE) : Res UInt64 := asBytes (Acc.GBR.call g mem i) >>= fun v => rate40 v sp 5

/-- `IE.OuterHeaderRemovalDescription`, /repo/ie/outer-header-removal.go:54-61. -/
def outerHeaderRemovalDescription (i : IE) : Res UInt8 :=
  asBytes (Acc.OuterHeaderRemoval.call g mem i) >>= fun v => Slice.idx ⟨v, []⟩ 0

/-- `IE.GTPUExtensionHeaderDeletion`, /repo/ie/outer-header-removal.go:64-77. -/
def gtpuExtensionHeaderDeletion (i : IE) : Res UInt8 :=
  asBytes (Acc.OuterHeaderRemoval.call g mem i) >>= fun v =>
    if v.length < 2 then .err .unexpectedEOF else Slice.idx ⟨v, []⟩ 1

/-- `IE.SST`, /repo/ie/s-nssai.go:47-54. -/
def sst (i : IE) : Res UInt8 := asBytes (Acc.SNSSAI.call g mem i) >>= fun v => Slice.idx ⟨v, []⟩ 0

/-- `IE.SD`, /repo/ie/s-nssai.go:57-64. -/
def sd (sp : Bytes) (i : IE) : Res UInt32 :=
  asBytes (Acc.SNSSAI.call g mem i) >>= fun v => Slice.sub ⟨v, sp⟩ 1 4 >>= fun x => .ok (uint24To32 x.data)

/-- `IE.ForwardingPolicyIdentifier`, /repo/ie/forwarding-policy.go:75-92. -/
def forwardingPolicyIdentifier (sp : Bytes) (i : IE) : Res Bytes :=
  asBytes (Acc.ForwardingPolicy.call g mem i) >>= fun v =>
    if v.length < 1 then .err .unexpectedEOF
    else Slice.idx ⟨v, sp⟩ 0 >>= fun n =>
      if v.length < n.toNat + 1 then .err .unexpectedEOF
      else Slice.sub ⟨v, sp⟩ 1 (n.toNat + 1) >>= fun x => .ok x.data

/-- `IE.UEIPAddressPoolIdentityString`, /repo/ie/ue-ip-address-pool-identity.go:60-76. -/
def ueIPAddressPoolIdentityString (sp : Bytes) (i : IE) : Res Bytes :=
  asBytes (Acc.UEIPAddressPoolIdentity.call g mem i) >>= fun v =>
    if v.length < 2 then .err .unexpectedEOF
    else Slice.u16At ⟨v, sp⟩ 0 >>= fun n =>
      if v.length < n.toNat + 2 then .err .unexpectedEOF
      else Slice.sub ⟨v, sp⟩ 2 (n.toNat + 2) >>= fun x => .ok x.data

/-- `IE.NetworkInstanceFQDN`, /repo/ie/network-instance.go:110-118. -/
def networkInstanceFQDN (i : IE) : Res Bytes :=
  asBytes (Acc.NetworkInstance.call g mem i) >>= fun _ => Text.decodeFQDN i.payload

/-- `IE.NetworkInstanceHeuristic`, /repo/ie/network-instance.go:123-134. -/
def networkInstanceHeuristic (i : IE) : Res Bytes :=
  networkInstanceFQDN g mem i >>= fun v =>
    if v ≠ [] then .ok v else asBytes (Acc.NetworkInstance.call g mem i)

/-- `IE.MustAPNDNN`, /repo/ie/apn-dnn.go:23-26: on an error, the empty string that came with it. -/
def mustAPNDNN (i : IE) : Res Bytes :=
  match asBytes (Acc.APNDNN.call g mem i) with
  | .err _ => .ok []
  | r => r

/-- `IE.TEIDRI`, /repo/ie/user-plane-ip-resource-information.go:38-44. -/
def teidri (i : IE) : Res UInt8 :=
  if i.typ ≠ T.UserPlaneIPResourceInformation then .ok 0
  else Slice.idx ⟨i.payload, mem i⟩ 0 >>= fun b => .ok ((b >>> 2) &&& 0x07)

/-- The loop of `IE.LocalFTEIDN`, /repo/ie/created-traffic-endpoint.go:59-68: `c` is the number of F-TEIDs seen. -/
def localLoop (n : Int) : List IE → Int → Res FTEID
  | [], _ => .err .ieNotFound
  | x :: xs, c =>
    if x.typ = T.FTEID then
      if c + 1 = n then asFTEID (Acc.FTEID.call g mem x) else localLoop n xs (c + 1)
    else localLoop n xs c

/-- `IE.LocalFTEIDN`, /repo/ie/created-traffic-endpoint.go:47-72. -/
def localFTEIDN (n : Int) (i : IE) : Res FTEID :=
  if n < 1 then .err .ieNotFound
  else if i.typ = T.CreatedTrafficEndpoint then
    asIEs (Acc.CreatedTrafficEndpoint.call g mem i) >>= fun cs => localLoop g mem n cs 0
  else .err (.invalidTypeError i.typ)

end

end Pfcp
