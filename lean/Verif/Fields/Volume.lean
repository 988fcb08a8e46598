/-
Volume codecs. The four files volume-quota.go, volume-threshold.go, subsequent-volume-quota.go and
subsequent-volume-threshold.go of /repo/ie contain the same codec up to the type name, so one model stands for the
four; line numbers are those of volume-quota.go and equal in volume-threshold.go.
-/
import Verif.Fields.IP

namespace Pfcp
namespace Fields

/-- `VolumeQuotaFields` and its three twins, /repo/ie/volume-quota.go:62-67,
/repo/ie/volume-threshold.go:62-67, /repo/ie/subsequent-volume-quota.go:73-78,
/repo/ie/subsequent-volume-threshold.go:73-78. -/
structure Volume where
  flags : UInt8
  total : UInt64
  uplink : UInt64
  downlink : UInt64
  deriving DecidableEq

namespace Volume

/-- `HasTOVOL`, :109. -/
def hasTOVOL (flags : UInt8) : Bool := has1stBit flags
/-- `HasULVOL`, :99. -/
def hasULVOL (flags : UInt8) : Bool := has2ndBit flags
/-- `HasDLVOL`, :89. -/
def hasDLVOL (flags : UInt8) : Bool := has3rdBit flags

/-- `NewVolumeQuotaFields`, :70-86. -/
def new (flags : UInt8) (t u d : UInt64) : Volume where
  flags := flags
  total := if hasTOVOL flags then t else 0
  uplink := if hasULVOL flags then u else 0
  downlink := if hasDLVOL flags then d else 0

/-- `UnmarshalBinary` into a zero value, :128-161. -/
def parseP : P Volume := do
  P.minLen 2
  let flags ← P.u8
  let t ← P.opt (hasTOVOL flags) P.f64 0
  let u ← P.opt (hasULVOL flags) P.f64 0
  let d ← P.opt (hasDLVOL flags) P.f64 0
  pure ⟨flags, t, u, d⟩

/-- `MarshalTo`, :173-206. -/
def marshalW (f : Volume) : W :=
  W.minLen 1 ;; W.u8 f.flags ;;
  W.opt (hasTOVOL f.flags) (W.need 8 ;; W.put (be64 f.total)) ;;
  W.opt (hasULVOL f.flags) (W.need 8 ;; W.put (be64 f.uplink)) ;;
  W.opt (hasDLVOL f.flags) (W.need 8 ;; W.put (be64 f.downlink))

/-- `MarshalLen`, :209-222. -/
def marshalLen (f : Volume) : Nat :=
  let l := 1
  let l := if hasTOVOL f.flags then l + 8 else l
  let l := if hasULVOL f.flags then l + 8 else l
  if hasDLVOL f.flags then l + 8 else l

/-- `ParseVolumeQuotaFields` :119-125 and `Marshal` :164-170. -/
def codec : Codec Volume := ⟨parseP.run, fun f => f.marshalW.marshal f.marshalLen⟩

/-- What the encoder writes. -/
def enc (f : Volume) : Bytes :=
  [f.flags] ++ ((if hasTOVOL f.flags then be64 f.total else []) ++
    ((if hasULVOL f.flags then be64 f.uplink else []) ++
      ((if hasDLVOL f.flags then be64 f.downlink else []) ++ [])))

theorem enc_length (f : Volume) : f.enc.length = f.marshalLen := by
  unfold enc marshalLen
  enc_len

theorem emits (f : Volume) : codec.marshal f = .ok f.enc := by
  show f.marshalW.marshal f.marshalLen = _
  rw [← enc_length]
  refine W.Emits.marshal_minLen (by simp [enc]) ?_
  unfold enc
  emits <;> simp

theorem good : P.Good0 parseP := by
  refine P.Good0.minLen (n := 2) (m := 0) ?_
  good

/-- The value without what the flags declare absent. -/
def norm (f : Volume) : Volume where
  flags := f.flags
  total := if hasTOVOL f.flags then f.total else 0
  uplink := if hasULVOL f.flags then f.uplink else 0
  downlink := if hasDLVOL f.flags then f.downlink else 0

theorem reads (f : Volume) (hf : 2 ≤ f.enc.length) (tail sp : Bytes) :
    codec.parse ⟨f.enc ++ tail, sp⟩ = .ok f.norm := by
  refine P.Reads.run_minLen hf ?_ tail sp
  unfold enc
  reads

end Volume

/-- `VolumeMeasurementFields`, /repo/ie/volume-measurement.go:53-61. -/
structure VolumeMeasurement where
  flags : UInt8
  total : UInt64
  uplink : UInt64
  downlink : UInt64
  totalPackets : UInt64
  uplinkPackets : UInt64
  downlinkPackets : UInt64
  deriving DecidableEq

namespace VolumeMeasurement

/-- `HasTOVOL`, :145. -/
def hasTOVOL (flags : UInt8) : Bool := has1stBit flags
/-- `HasULVOL`, :135. -/
def hasULVOL (flags : UInt8) : Bool := has2ndBit flags
/-- `HasDLVOL`, :125. -/
def hasDLVOL (flags : UInt8) : Bool := has3rdBit flags
/-- `HasTONOP`, :115. -/
def hasTONOP (flags : UInt8) : Bool := has4thBit flags
/-- `HasULNOP`, :105. -/
def hasULNOP (flags : UInt8) : Bool := has5thBit flags
/-- `HasDLNOP`, :95. -/
def hasDLNOP (flags : UInt8) : Bool := has6thBit flags

/-- `NewVolumeMeasurementFields`, :64-92. -/
def new (flags : UInt8) (t u d tp up dp : UInt64) : VolumeMeasurement where
  flags := flags
  total := if hasTOVOL flags then t else 0
  uplink := if hasULVOL flags then u else 0
  downlink := if hasDLVOL flags then d else 0
  totalPackets := if hasTONOP flags then tp else 0
  uplinkPackets := if hasULNOP flags then up else 0
  downlinkPackets := if hasDLNOP flags then dp else 0

/-- `UnmarshalBinary` into a zero value, :164-221. -/
def parseP : P VolumeMeasurement := do
  P.minLen 2
  let flags ← P.u8
  let t ← P.opt (hasTOVOL flags) P.f64 0
  let u ← P.opt (hasULVOL flags) P.f64 0
  let d ← P.opt (hasDLVOL flags) P.f64 0
  let tp ← P.opt (hasTONOP flags) P.f64 0
  let up ← P.opt (hasULNOP flags) P.f64 0
  let dp ← P.opt (hasDLNOP flags) P.f64 0
  pure ⟨flags, t, u, d, tp, up, dp⟩

/-- `MarshalTo`, :233-290. -/
def marshalW (f : VolumeMeasurement) : W :=
  W.minLen 1 ;; W.u8 f.flags ;;
  W.opt (hasTOVOL f.flags) (W.need 8 ;; W.put (be64 f.total)) ;;
  W.opt (hasULVOL f.flags) (W.need 8 ;; W.put (be64 f.uplink)) ;;
  W.opt (hasDLVOL f.flags) (W.need 8 ;; W.put (be64 f.downlink)) ;;
  W.opt (hasTONOP f.flags) (W.need 8 ;; W.put (be64 f.totalPackets)) ;;
  W.opt (hasULNOP f.flags) (W.need 8 ;; W.put (be64 f.uplinkPackets)) ;;
  W.opt (hasDLNOP f.flags) (W.need 8 ;; W.put (be64 f.downlinkPackets))

/-- `MarshalLen`, :293-315. -/
def marshalLen (f : VolumeMeasurement) : Nat :=
  let l := 1
  let l := if hasTOVOL f.flags then l + 8 else l
  let l := if hasULVOL f.flags then l + 8 else l
  let l := if hasDLVOL f.flags then l + 8 else l
  let l := if hasTONOP f.flags then l + 8 else l
  let l := if hasULNOP f.flags then l + 8 else l
  if hasDLNOP f.flags then l + 8 else l

/-- `ParseVolumeMeasurementFields` :155-161 and `Marshal` :224-230. -/
def codec : Codec VolumeMeasurement := ⟨parseP.run, fun f => f.marshalW.marshal f.marshalLen⟩

/-- What the encoder writes. -/
def enc (f : VolumeMeasurement) : Bytes :=
  [f.flags] ++ ((if hasTOVOL f.flags then be64 f.total else []) ++
    ((if hasULVOL f.flags then be64 f.uplink else []) ++
      ((if hasDLVOL f.flags then be64 f.downlink else []) ++
        ((if hasTONOP f.flags then be64 f.totalPackets else []) ++
          ((if hasULNOP f.flags then be64 f.uplinkPackets else []) ++
            ((if hasDLNOP f.flags then be64 f.downlinkPackets else []) ++ []))))))

theorem enc_length (f : VolumeMeasurement) : f.enc.length = f.marshalLen := by
  unfold enc marshalLen
  enc_len

theorem emits (f : VolumeMeasurement) : codec.marshal f = .ok f.enc := by
  show f.marshalW.marshal f.marshalLen = _
  rw [← enc_length]
  refine W.Emits.marshal_minLen (by simp [enc]) ?_
  unfold enc
  emits <;> simp

theorem good : P.Good0 parseP := by
  refine P.Good0.minLen (n := 2) (m := 0) ?_
  good

/-- The value without what the flags declare absent. -/
def norm (f : VolumeMeasurement) : VolumeMeasurement :=
  new f.flags f.total f.uplink f.downlink f.totalPackets f.uplinkPackets f.downlinkPackets

theorem reads (f : VolumeMeasurement) (hf : 2 ≤ f.enc.length) (tail sp : Bytes) :
    codec.parse ⟨f.enc ++ tail, sp⟩ = .ok f.norm := by
  refine P.Reads.run_minLen hf ?_ tail sp
  unfold enc
  reads

end VolumeMeasurement
end Fields
end Pfcp
