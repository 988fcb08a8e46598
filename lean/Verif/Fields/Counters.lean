/- Structured elements that consist of a flags octet and optional integers. -/
import Verif.Fields.IP
import Verif.Time

namespace Pfcp
namespace Fields

/-! ### NumberOfUEIPAddresses -/

/-- `NumberOfUEIPAddressesFields`, /repo/ie/number-of-ue-ip-addresses.go:51-55. -/
structure NumberOfUEIPAddresses where
  flags : UInt8
  v4 : UInt32
  v6 : UInt32
  deriving DecidableEq

namespace NumberOfUEIPAddresses

/-- `HasNumIPv4`, :77. -/
def hasNumIPv4 (flags : UInt8) : Bool := has1stBit flags
/-- `HasNumIPv6`, :67. -/
def hasNumIPv6 (flags : UInt8) : Bool := has2ndBit flags

/-- `NewNumberOfUEIPAddressesFields`, :58-64. -/
def new (flags : UInt8) (v4 v6 : UInt32) : NumberOfUEIPAddresses := ⟨flags, v4, v6⟩

/-- `UnmarshalBinary` into a zero value, :96-121. -/
def parseP : P NumberOfUEIPAddresses := do
  P.minLen 1
  let flags ← P.u8
  let v4 ← P.opt (hasNumIPv4 flags) P.f32 0
  let v6 ← P.opt (hasNumIPv6 flags) P.f32 0
  pure ⟨flags, v4, v6⟩

/-- `MarshalTo`, :133-158. -/
def marshalW (f : NumberOfUEIPAddresses) : W :=
  W.minLen 1 ;; W.u8 f.flags ;;
  W.opt (hasNumIPv4 f.flags) (W.need 4 ;; W.put (be32 f.v4)) ;;
  W.opt (hasNumIPv6 f.flags) (W.need 4 ;; W.put (be32 f.v6))

/-- `MarshalLen`, :161-173. -/
def marshalLen (f : NumberOfUEIPAddresses) : Nat :=
  let l := 1
  let l := if hasNumIPv4 f.flags then l + 4 else l
  if hasNumIPv6 f.flags then l + 4 else l

/-- `ParseNumberOfUEIPAddressesFields` :87-93 and `Marshal` :124-130. -/
def codec : Codec NumberOfUEIPAddresses := ⟨parseP.run, fun f => f.marshalW.marshal f.marshalLen⟩

/-- What the encoder writes. -/
def enc (f : NumberOfUEIPAddresses) : Bytes :=
  [f.flags] ++ ((if hasNumIPv4 f.flags then be32 f.v4 else []) ++
    ((if hasNumIPv6 f.flags then be32 f.v6 else []) ++ []))

/-- The value without what the flags declare absent. -/
def norm (f : NumberOfUEIPAddresses) : NumberOfUEIPAddresses where
  flags := f.flags
  v4 := if hasNumIPv4 f.flags then f.v4 else 0
  v6 := if hasNumIPv6 f.flags then f.v6 else 0

theorem enc_length (f : NumberOfUEIPAddresses) : f.enc.length = f.marshalLen := by
  unfold enc marshalLen
  enc_len

theorem emits (f : NumberOfUEIPAddresses) : codec.marshal f = .ok f.enc := by
  show f.marshalW.marshal f.marshalLen = _
  rw [← enc_length]
  refine W.Emits.marshal_minLen (by simp [enc]) ?_
  unfold enc
  emits <;> simp

theorem good : P.Good0 parseP := by
  refine P.Good0.minLen (n := 1) (m := 0) ?_
  good

theorem reads (f : NumberOfUEIPAddresses) (tail sp : Bytes) :
    codec.parse ⟨f.enc ++ tail, sp⟩ = .ok f.norm := by
  refine P.Reads.run_minLen (by simp [enc]) ?_ tail sp
  unfold enc
  reads

end NumberOfUEIPAddresses

/-! ### PacketDelayThresholds and QoSMonitoringMeasurement

The two codecs are the same up to names; line numbers are those of packet-delay-thresholds.go, then those of
qos-monitoring-measurement.go. -/

/-- `PacketDelayThresholdsFields`, /repo/ie/packet-delay-thresholds.go:51-56;
`QoSMonitoringMeasurementFields`, /repo/ie/qos-monitoring-measurement.go:51-56. -/
structure Delays where
  flags : UInt8
  dl : UInt32
  ul : UInt32
  rp : UInt32
  deriving DecidableEq

namespace Delays

/-- `HasDL`, :89; :99. -/
def hasDL (flags : UInt8) : Bool := has1stBit flags
/-- `HasUL`, :79; :89. -/
def hasUL (flags : UInt8) : Bool := has2ndBit flags
/-- `HasRP`, :69; :79. -/
def hasRP (flags : UInt8) : Bool := has3rdBit flags

/-- `NewPacketDelayThresholdsFields`, :59-66; :59-66. -/
def new (flags : UInt8) (dl ul rp : UInt32) : Delays := ⟨flags, dl, ul, rp⟩

/-- `UnmarshalBinary` into a zero value, :108-141; :118-151. -/
def parseP : P Delays := do
  P.minLen 1
  let flags ← P.u8
  let dl ← P.opt (hasDL flags) P.f32 0
  let ul ← P.opt (hasUL flags) P.f32 0
  let rp ← P.opt (hasRP flags) P.f32 0
  pure ⟨flags, dl, ul, rp⟩

/-- `MarshalTo`, :153-186; :163-196. -/
def marshalW (f : Delays) : W :=
  W.minLen 1 ;; W.u8 f.flags ;;
  W.opt (hasDL f.flags) (W.need 4 ;; W.put (be32 f.dl)) ;;
  W.opt (hasUL f.flags) (W.need 4 ;; W.put (be32 f.ul)) ;;
  W.opt (hasRP f.flags) (W.need 4 ;; W.put (be32 f.rp))

/-- `MarshalLen`, :189-201; :199-211. -/
def marshalLen (f : Delays) : Nat :=
  let l := 1
  let l := if hasDL f.flags then l + 4 else l
  let l := if hasUL f.flags then l + 4 else l
  if hasRP f.flags then l + 4 else l

/-- `ParsePacketDelayThresholdsFields` :99-105; :109-115, and `Marshal` :144-150; :154-160. -/
def codec : Codec Delays := ⟨parseP.run, fun f => f.marshalW.marshal f.marshalLen⟩

/-- What the encoder writes. -/
def enc (f : Delays) : Bytes :=
  [f.flags] ++ ((if hasDL f.flags then be32 f.dl else []) ++
    ((if hasUL f.flags then be32 f.ul else []) ++
      ((if hasRP f.flags then be32 f.rp else []) ++ [])))

/-- The value without what the flags declare absent. -/
def norm (f : Delays) : Delays where
  flags := f.flags
  dl := if hasDL f.flags then f.dl else 0
  ul := if hasUL f.flags then f.ul else 0
  rp := if hasRP f.flags then f.rp else 0

theorem enc_length (f : Delays) : f.enc.length = f.marshalLen := by
  unfold enc marshalLen
  enc_len

theorem emits (f : Delays) : codec.marshal f = .ok f.enc := by
  show f.marshalW.marshal f.marshalLen = _
  rw [← enc_length]
  refine W.Emits.marshal_minLen (by simp [enc]) ?_
  unfold enc
  emits <;> simp

theorem good : P.Good0 parseP := by
  refine P.Good0.minLen (n := 1) (m := 0) ?_
  good

theorem reads (f : Delays) (tail sp : Bytes) :
    codec.parse ⟨f.enc ++ tail, sp⟩ = .ok f.norm := by
  refine P.Reads.run_minLen (by simp [enc]) ?_ tail sp
  unfold enc
  reads

end Delays

/-! ### DLFlowLevelMarking -/

/-- `DLFlowLevelMarkingFields`, /repo/ie/dl-flow-level-marking.go:85-89. -/
structure DLFlowLevelMarking where
  flags : UInt8
  ttc : UInt16
  sci : UInt16
  deriving DecidableEq

namespace DLFlowLevelMarking

/-- `NewDLFlowLevelMarkingFields`, :92-104. -/
def new (flags : UInt8) (ttc sci : UInt16) : DLFlowLevelMarking where
  flags := flags
  ttc := if has1stBit flags then ttc else 0
  sci := if has2ndBit flags then sci else 0

/-- `UnmarshalBinary` into a zero value, :116-141. -/
def parseP : P DLFlowLevelMarking := do
  P.minLen 1
  let flags ← P.u8
  let ttc ← P.opt (has1stBit flags) P.f16 0
  let sci ← P.opt (has2ndBit flags) P.f16 0
  pure ⟨flags, ttc, sci⟩

/-- `MarshalTo`, :153-172. -/
def marshalW (f : DLFlowLevelMarking) : W :=
  W.minLen 2 ;; W.u8 f.flags ;;
  W.opt (has1stBit f.flags) (W.put (be16 f.ttc)) ;;
  W.opt (has2ndBit f.flags) (W.put (be16 f.sci))

/-- `MarshalLen`, :175-185. -/
def marshalLen (f : DLFlowLevelMarking) : Nat :=
  let l := 1
  let l := if has1stBit f.flags then l + 2 else l
  if has2ndBit f.flags then l + 2 else l

/-- `ParseDLFlowLevelMarkingFields` :107-113 and `Marshal` :144-150. -/
def codec : Codec DLFlowLevelMarking := ⟨parseP.run, fun f => f.marshalW.marshal f.marshalLen⟩

/-- What the encoder writes. -/
def enc (f : DLFlowLevelMarking) : Bytes :=
  [f.flags] ++ ((if has1stBit f.flags then be16 f.ttc else []) ++
    ((if has2ndBit f.flags then be16 f.sci else []) ++ []))

/-- The value without what the flags declare absent. -/
def norm (f : DLFlowLevelMarking) : DLFlowLevelMarking := new f.flags f.ttc f.sci

theorem enc_length (f : DLFlowLevelMarking) : f.enc.length = f.marshalLen := by
  unfold enc marshalLen
  enc_len

theorem emits (f : DLFlowLevelMarking) (h : 2 ≤ f.enc.length) : codec.marshal f = .ok f.enc := by
  show f.marshalW.marshal f.marshalLen = _
  rw [← enc_length]
  refine W.Emits.marshal_minLen h ?_
  unfold enc
  emits <;> simp

theorem good : P.Good0 parseP := by
  refine P.Good0.minLen (n := 1) (m := 0) ?_
  good

theorem reads (f : DLFlowLevelMarking) (tail sp : Bytes) :
    codec.parse ⟨f.enc ++ tail, sp⟩ = .ok f.norm := by
  refine P.Reads.run_minLen (by simp [enc]) ?_ tail sp
  unfold enc
  reads

end DLFlowLevelMarking

/-! ### PacketRate -/

/-- `PacketRateFields`, /repo/ie/packet-rate.go:94-100. -/
structure PacketRate where
  flags : UInt8
  ulUnit : UInt8
  dlUnit : UInt8
  ulRate : UInt16
  dlRate : UInt16
  deriving DecidableEq

namespace PacketRate

/-- `NewPacketRateFields`, :103-117. -/
def new (flags ulUnit : UInt8) (ulRate : UInt16) (dlUnit : UInt8) (dlRate : UInt16) : PacketRate where
  flags := flags
  ulUnit := if has1stBit flags then ulUnit else 0
  ulRate := if has1stBit flags then ulRate else 0
  dlUnit := if has2ndBit flags then dlUnit else 0
  dlRate := if has2ndBit flags then dlRate else 0

/-- `if l < offset+3 {…}; unit = b[offset]; rate = Uint16(b[offset+1:offset+3]); offset += 3`, :139-144. -/
def rateP : P (UInt8 × UInt16) := do
  P.need 3
  let u ← P.u8
  let r ← P.u16
  pure (u, r)

/-- `UnmarshalBinary` into a zero value, :129-156. -/
def parseP : P PacketRate := do
  P.minLen 2
  let flags ← P.u8
  let ul ← P.opt (has1stBit flags) rateP (0, 0)
  let dl ← P.opt (has2ndBit flags) rateP (0, 0)
  pure ⟨flags, ul.1, dl.1, ul.2, dl.2⟩

/-- `MarshalTo`, :168-189. -/
def marshalW (f : PacketRate) : W :=
  W.minLen 2 ;; W.u8 f.flags ;;
  W.opt (has1stBit f.flags) (W.u8 f.ulUnit ;; W.put (be16 f.ulRate)) ;;
  W.opt (has2ndBit f.flags) (W.u8 f.dlUnit ;; W.put (be16 f.dlRate))

/-- `MarshalLen`, :192-202. -/
def marshalLen (f : PacketRate) : Nat :=
  let l := 1
  let l := if has1stBit f.flags then l + 3 else l
  if has2ndBit f.flags then l + 3 else l

/-- `ParsePacketRateFields` :120-126 and `Marshal` :159-165. -/
def codec : Codec PacketRate := ⟨parseP.run, fun f => f.marshalW.marshal f.marshalLen⟩

/-- What the encoder writes. -/
def enc (f : PacketRate) : Bytes :=
  [f.flags] ++ ((if has1stBit f.flags then [f.ulUnit] ++ be16 f.ulRate else []) ++
    ((if has2ndBit f.flags then [f.dlUnit] ++ be16 f.dlRate else []) ++ []))

/-- The value without what the flags declare absent. -/
def norm (f : PacketRate) : PacketRate := new f.flags f.ulUnit f.ulRate f.dlUnit f.dlRate

theorem enc_length (f : PacketRate) : f.enc.length = f.marshalLen := by
  unfold enc marshalLen
  enc_len

theorem emits (f : PacketRate) (h : 2 ≤ f.enc.length) : codec.marshal f = .ok f.enc := by
  show f.marshalW.marshal f.marshalLen = _
  rw [← enc_length]
  refine W.Emits.marshal_minLen h ?_
  unfold enc
  emits <;> simp

theorem good : P.Good0 parseP := by
  refine P.Good0.minLen (n := 2) (m := 0) ?_
  unfold rateP
  good

theorem rate_reads (u : UInt8) (r : UInt16) : P.Reads rateP ([u] ++ be16 r) (u, r) := by
  refine P.Reads.need (by simp) ?_
  exact P.Reads.bind (P.Reads.u8 u) (P.Reads.map (fun r => (u, r)) (P.Reads.u16 r))

theorem reads (f : PacketRate) (h : 2 ≤ f.enc.length) (tail sp : Bytes) :
    codec.parse ⟨f.enc ++ tail, sp⟩ = .ok f.norm := by
  refine P.Reads.run_minLen h ?_ tail sp
  unfold enc
  refine P.Reads.bind (P.Reads.u8 _) ?_
  refine P.Reads.bind (P.Reads.optIte fun _ => rate_reads _ _) ?_
  refine P.Reads.bind (P.Reads.optIte fun _ => rate_reads _ _) ?_
  refine P.Reads.done (P.Reads.pure _) ?_
  simp only [norm, new, apply_ite Prod.fst, apply_ite Prod.snd]

end PacketRate

/-! ### PacketRateStatus -/

/-- `PacketRateStatusFields`, /repo/ie/packet-rate-status.go:74-81. -/
structure PacketRateStatus where
  flags : UInt8
  ul : UInt16
  aul : UInt16
  dl : UInt16
  adl : UInt16
  vtime : Time
  deriving DecidableEq

namespace PacketRateStatus

/-- `HasUL`, :128. -/
def hasUL (flags : UInt8) : Bool := has1stBit flags
/-- `HasDL`, :118. -/
def hasDL (flags : UInt8) : Bool := has2ndBit flags
/-- `HasAPR`, :108. -/
def hasAPR (flags : UInt8) : Bool := has3rdBit flags

/-- `NewPacketRateStatusFields`, :84-105. -/
def new (flags : UInt8) (ul aul dl adl : UInt16) (vtime : Time) : PacketRateStatus where
  flags := flags
  vtime := vtime
  ul := if hasUL flags then ul else 0
  aul := if hasUL flags then (if hasAPR flags then aul else 0) else 0
  dl := if hasDL flags then dl else 0
  adl := if hasDL flags then (if hasAPR flags then adl else 0) else 0

/-- One direction, :156-170. -/
def dirP (apr : Bool) : P (UInt16 × UInt16) := do
  let x ← P.f16
  let y ← P.opt apr P.f16 0
  pure (x, y)

/-- The wall clock time of an unsigned count of seconds since 1900,
`time.Unix(int64(x-2208988800), 0)`, :191; the subtraction wraps in uint64. -/
def ofNtp64 (x : UInt64) : Time := unix (x - 2208988800).toInt64.toInt

/-- `UnmarshalBinary` into a zero value, :147-194. -/
def parseP : P PacketRateStatus := do
  P.minLen 2
  let flags ← P.u8
  let u ← P.opt (hasUL flags) (dirP (hasAPR flags)) (0, 0)
  let d ← P.opt (hasDL flags) (dirP (hasAPR flags)) (0, 0)
  let t ← P.f64
  pure ⟨flags, u.1, u.2, d.1, d.2, ofNtp64 t⟩

/-- `MarshalTo`, :206-253. -/
def marshalW (f : PacketRateStatus) : W :=
  W.minLen 1 ;; W.u8 f.flags ;;
  W.opt (hasUL f.flags) (W.need 2 ;; W.put (be16 f.ul) ;;
    W.opt (hasAPR f.flags) (W.need 2 ;; W.put (be16 f.aul))) ;;
  W.opt (hasDL f.flags) (W.need 2 ;; W.put (be16 f.dl) ;;
    W.opt (hasAPR f.flags) (W.need 2 ;; W.put (be16 f.adl))) ;;
  W.need 8 ;; W.put (be64 (ntpSeconds f.vtime))

/-- `MarshalLen`, :256-272. -/
def marshalLen (f : PacketRateStatus) : Nat :=
  let l := 1 + 8
  let l := if hasUL f.flags then (let l := l + 2; if hasAPR f.flags then l + 2 else l) else l
  if hasDL f.flags then (let l := l + 2; if hasAPR f.flags then l + 2 else l) else l

/-- `ParsePacketRateStatusFields` :138-144 and `Marshal` :197-203. -/
def codec : Codec PacketRateStatus := ⟨parseP.run, fun f => f.marshalW.marshal f.marshalLen⟩

/-- What the encoder writes. -/
def enc (f : PacketRateStatus) : Bytes :=
  [f.flags] ++
  ((if hasUL f.flags then be16 f.ul ++ ((if hasAPR f.flags then be16 f.aul else []) ++ []) else []) ++
  ((if hasDL f.flags then be16 f.dl ++ ((if hasAPR f.flags then be16 f.adl else []) ++ []) else []) ++
  (be64 (ntpSeconds f.vtime) ++ [])))

/-- The value without what the flags declare absent, and the time as the wire can hold it. -/
def norm (f : PacketRateStatus) : PacketRateStatus :=
  new f.flags f.ul f.aul f.dl f.adl (ofNtp64 (ntpSeconds f.vtime))

theorem enc_length (f : PacketRateStatus) : f.enc.length = f.marshalLen := by
  unfold enc marshalLen
  cases hasUL f.flags <;> cases hasDL f.flags <;> cases hasAPR f.flags <;> simp

theorem emits (f : PacketRateStatus) : codec.marshal f = .ok f.enc := by
  show f.marshalW.marshal f.marshalLen = _
  rw [← enc_length]
  refine W.Emits.marshal_minLen (by simp [enc]) ?_
  unfold enc
  emits <;> simp

theorem good : P.Good0 parseP := by
  refine P.Good0.minLen (n := 2) (m := 0) ?_
  unfold dirP
  good

theorem dir_reads (c : Bool) (x y : UInt16) :
    P.Reads (dirP c) (be16 x ++ ((if c then be16 y else []) ++ [])) (x, if c then y else 0) := by
  unfold dirP
  reads

theorem reads (f : PacketRateStatus) (tail sp : Bytes) :
    codec.parse ⟨f.enc ++ tail, sp⟩ = .ok f.norm := by
  refine P.Reads.run_minLen (by simp [enc]; omega) ?_ tail sp
  unfold enc
  refine P.Reads.bind (P.Reads.u8 _) ?_
  refine P.Reads.bind (P.Reads.optIte fun _ => dir_reads _ _ _) ?_
  refine P.Reads.bind (P.Reads.optIte fun _ => dir_reads _ _ _) ?_
  refine P.Reads.bind (P.Reads.f64 _) ?_
  refine P.Reads.done (P.Reads.pure _) ?_
  simp only [norm, new, apply_ite Prod.fst, apply_ite Prod.snd]

end PacketRateStatus

end Fields
end Pfcp
