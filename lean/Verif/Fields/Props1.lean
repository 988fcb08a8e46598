/- Property theorems about structured elements made of integers: C40-C43 and C52 for the codecs of Volume.lean and
Counters.lean. Expected values and bytes are spelled out with `bit`, the bit number from 0. -/
import Verif.Fields.Volume
import Verif.Fields.Counters
import Verif.Fields.Sound

namespace Pfcp
namespace Fields

/-! ### VolumeQuota, VolumeThreshold, SubsequentVolumeQuota, SubsequentVolumeThreshold -/

/-- C52. Flags octet, then the volumes present, eight octets each, in the order total, uplink, downlink. -/
theorem C52_Volume (flags : UInt8) (t u d : UInt64) :
    Volume.codec.Encodes (Volume.new flags t u d)
      ([flags] ++ (if bit flags 0 then be64 t else []) ++ (if bit flags 1 then be64 u else []) ++
        (if bit flags 2 then be64 d else [])) := by
  unfold Codec.Encodes
  rw [Volume.emits]
  simp only [Volume.enc, Volume.new, Volume.hasTOVOL, Volume.hasULVOL, Volume.hasDLVOL, has1stBit_eq,
    has2ndBit_eq, has3rdBit_eq]
  cases bit flags 0 <;> cases bit flags 1 <;> cases bit flags 2 <;> simp

/-- C40, for any flags that announce at least one volume. -/
theorem C40_Volume_partial (flags : UInt8) (t u d : UInt64)
    (h : bit flags 0 = true ∨ bit flags 1 = true ∨ bit flags 2 = true) :
    Volume.codec.Yields (Volume.new flags t u d)
      ⟨flags, if bit flags 0 then t else 0, if bit flags 1 then u else 0, if bit flags 2 then d else 0⟩ := by
  refine ⟨_, Volume.emits _, fun tail sp => ?_⟩
  rw [Volume.reads]
  · simp only [Volume.norm, Volume.new, Volume.hasTOVOL, Volume.hasULVOL, Volume.hasDLVOL, has1stBit_eq,
      has2ndBit_eq, has3rdBit_eq]
    cases bit flags 0 <;> cases bit flags 1 <;> cases bit flags 2 <;> rfl
  · simp only [Volume.enc, Volume.new, Volume.hasTOVOL, Volume.hasULVOL, Volume.hasDLVOL, has1stBit_eq,
      has2ndBit_eq, has3rdBit_eq]
    revert h
    cases bit flags 0 <;> cases bit flags 1 <;> cases bit flags 2 <;> simp

/-- C40 without that hypothesis is false: what the constructor returns for flags 0 is refused by the decoder. -/
theorem C40_Volume_violated (t u d : UInt64) :
    ∃ w, Volume.codec.marshal (Volume.new 0 t u d) = .ok w ∧
      Volume.codec.parse ⟨w, []⟩ = .err .unexpectedEOF :=
  ⟨[0], (C52_Volume 0 t u d).trans (by simp [bit]), rfl⟩

theorem Volume.takes (s : Slice) (v : Volume) (h : Volume.codec.parse s = .ok v) :
    ∃ post, s.data = v.enc ++ post := by
  refine P.Takes.run (m := 0) ?_ s v h
  refine P.Takes.weaken (R := _) (by takes) ?_
  clear h
  intro a w h
  unfold Volume.enc
  takes_done h

/-- C53. Any accepted input starts with the encoding of the decoded value. -/
theorem C53_Volume : Volume.codec.Lossless := by
  intro s v h
  obtain ⟨post, e⟩ := Volume.takes s v h
  exact ⟨_, post, Volume.emits v, e⟩

theorem C41_Volume : Volume.codec.NoPanic := Volume.good.run.1
theorem C42_Volume : Volume.codec.Local := Volume.good.run.2
theorem C43_Volume (flags : UInt8) (t u d : UInt64) : Volume.codec.Builds (Volume.new flags t u d) :=
  ⟨_, Volume.emits _⟩

example : bit 0x06 0 = false ∧ bit 0x06 1 = true := by decide
example : Volume.codec.parse ⟨[1, 0, 0, 0, 0, 0, 0, 1, 2], []⟩ = .ok ⟨1, 258, 0, 0⟩ := by decide
example : Volume.codec.parse ⟨[1, 0, 0, 0, 0, 0, 0, 1], [2]⟩ = .err .unexpectedEOF := by decide

/-! ### VolumeMeasurement -/

theorem C52_VolumeMeasurement (flags : UInt8) (t u d tp up dp : UInt64) :
    VolumeMeasurement.codec.Encodes (VolumeMeasurement.new flags t u d tp up dp)
      ([flags] ++ (if bit flags 0 then be64 t else []) ++ (if bit flags 1 then be64 u else []) ++
        (if bit flags 2 then be64 d else []) ++ (if bit flags 3 then be64 tp else []) ++
        (if bit flags 4 then be64 up else []) ++ (if bit flags 5 then be64 dp else [])) := by
  unfold Codec.Encodes
  rw [VolumeMeasurement.emits]
  simp only [VolumeMeasurement.enc, VolumeMeasurement.new, VolumeMeasurement.hasTOVOL,
    VolumeMeasurement.hasULVOL, VolumeMeasurement.hasDLVOL, VolumeMeasurement.hasTONOP,
    VolumeMeasurement.hasULNOP, VolumeMeasurement.hasDLNOP, has1stBit_eq, has2ndBit_eq, has3rdBit_eq,
    has4thBit_eq, has5thBit_eq, has6thBit_eq]
  cases bit flags 0 <;> cases bit flags 1 <;> cases bit flags 2 <;> cases bit flags 3 <;>
    cases bit flags 4 <;> cases bit flags 5 <;> simp

/-- C40, for any flags that announce at least one number. -/
theorem C40_VolumeMeasurement_partial (flags : UInt8) (t u d tp up dp : UInt64)
    (h : ∃ i, i < 6 ∧ bit flags i = true) :
    VolumeMeasurement.codec.Yields (VolumeMeasurement.new flags t u d tp up dp)
      ⟨flags, if bit flags 0 then t else 0, if bit flags 1 then u else 0, if bit flags 2 then d else 0,
        if bit flags 3 then tp else 0, if bit flags 4 then up else 0, if bit flags 5 then dp else 0⟩ := by
  refine ⟨_, VolumeMeasurement.emits _, fun tail sp => ?_⟩
  rw [VolumeMeasurement.reads]
  · simp only [VolumeMeasurement.norm, VolumeMeasurement.new, VolumeMeasurement.hasTOVOL,
      VolumeMeasurement.hasULVOL, VolumeMeasurement.hasDLVOL, VolumeMeasurement.hasTONOP,
      VolumeMeasurement.hasULNOP, VolumeMeasurement.hasDLNOP, has1stBit_eq, has2ndBit_eq, has3rdBit_eq,
      has4thBit_eq, has5thBit_eq, has6thBit_eq]
    cases bit flags 0 <;> cases bit flags 1 <;> cases bit flags 2 <;> cases bit flags 3 <;>
      cases bit flags 4 <;> cases bit flags 5 <;> rfl
  · have h' : bit flags 0 = true ∨ bit flags 1 = true ∨ bit flags 2 = true ∨ bit flags 3 = true ∨
        bit flags 4 = true ∨ bit flags 5 = true := by
      obtain ⟨i, hi, hb⟩ := h
      have : i = 0 ∨ i = 1 ∨ i = 2 ∨ i = 3 ∨ i = 4 ∨ i = 5 := by omega
      rcases this with rfl | rfl | rfl | rfl | rfl | rfl <;> simp [hb]
    simp only [VolumeMeasurement.enc, VolumeMeasurement.new, VolumeMeasurement.hasTOVOL,
      VolumeMeasurement.hasULVOL, VolumeMeasurement.hasDLVOL, VolumeMeasurement.hasTONOP,
      VolumeMeasurement.hasULNOP, VolumeMeasurement.hasDLNOP, has1stBit_eq, has2ndBit_eq, has3rdBit_eq,
      has4thBit_eq, has5thBit_eq, has6thBit_eq]
    revert h'
    cases bit flags 0 <;> cases bit flags 1 <;> cases bit flags 2 <;> cases bit flags 3 <;>
      cases bit flags 4 <;> cases bit flags 5 <;> simp

/-- C40 without that hypothesis is false: what the constructor returns for flags 0 is refused by the decoder. -/
theorem C40_VolumeMeasurement_violated (t u d tp up dp : UInt64) :
    ∃ w, VolumeMeasurement.codec.marshal (VolumeMeasurement.new 0 t u d tp up dp) = .ok w ∧
      VolumeMeasurement.codec.parse ⟨w, []⟩ = .err .unexpectedEOF :=
  ⟨[0], (C52_VolumeMeasurement 0 t u d tp up dp).trans (by simp [bit]), rfl⟩

theorem VolumeMeasurement.takes (s : Slice) (v : VolumeMeasurement) (h : VolumeMeasurement.codec.parse s = .ok v) :
    ∃ post, s.data = v.enc ++ post := by
  refine P.Takes.run (m := 0) ?_ s v h
  refine P.Takes.weaken (R := _) (by takes) ?_
  clear h
  intro a w h
  unfold VolumeMeasurement.enc
  takes_done h

/-- C53. Any accepted input starts with the encoding of the decoded value. -/
theorem C53_VolumeMeasurement : VolumeMeasurement.codec.Lossless := by
  intro s v h
  obtain ⟨post, e⟩ := VolumeMeasurement.takes s v h
  exact ⟨_, post, VolumeMeasurement.emits v, e⟩

theorem C41_VolumeMeasurement : VolumeMeasurement.codec.NoPanic := VolumeMeasurement.good.run.1
theorem C42_VolumeMeasurement : VolumeMeasurement.codec.Local := VolumeMeasurement.good.run.2
theorem C43_VolumeMeasurement (flags : UInt8) (t u d tp up dp : UInt64) :
    VolumeMeasurement.codec.Builds (VolumeMeasurement.new flags t u d tp up dp) :=
  ⟨_, VolumeMeasurement.emits _⟩

example : ∃ i, i < 6 ∧ bit 0x20 i = true := ⟨5, by decide, by decide⟩
example : VolumeMeasurement.codec.parse ⟨[0x20, 0, 0, 0, 0, 0, 0, 1, 2], []⟩
    = .ok ⟨0x20, 0, 0, 0, 0, 0, 258⟩ := by decide

/-! ### NumberOfUEIPAddresses -/

theorem C52_NumberOfUEIPAddresses (flags : UInt8) (v4 v6 : UInt32) :
    NumberOfUEIPAddresses.codec.Encodes (NumberOfUEIPAddresses.new flags v4 v6)
      ([flags] ++ (if bit flags 0 then be32 v4 else []) ++ (if bit flags 1 then be32 v6 else [])) := by
  unfold Codec.Encodes
  rw [NumberOfUEIPAddresses.emits]
  simp only [NumberOfUEIPAddresses.enc, NumberOfUEIPAddresses.new, NumberOfUEIPAddresses.hasNumIPv4,
    NumberOfUEIPAddresses.hasNumIPv6, has1stBit_eq, has2ndBit_eq, List.append_nil, List.append_assoc]

theorem C40_NumberOfUEIPAddresses (flags : UInt8) (v4 v6 : UInt32) :
    NumberOfUEIPAddresses.codec.Yields (NumberOfUEIPAddresses.new flags v4 v6)
      ⟨flags, if bit flags 0 then v4 else 0, if bit flags 1 then v6 else 0⟩ := by
  refine ⟨_, NumberOfUEIPAddresses.emits _, fun tail sp => ?_⟩
  rw [NumberOfUEIPAddresses.reads]
  simp only [NumberOfUEIPAddresses.norm, NumberOfUEIPAddresses.new, NumberOfUEIPAddresses.hasNumIPv4,
    NumberOfUEIPAddresses.hasNumIPv6, has1stBit_eq, has2ndBit_eq]

theorem NumberOfUEIPAddresses.takes (s : Slice) (v : NumberOfUEIPAddresses) (h : NumberOfUEIPAddresses.codec.parse s = .ok v) :
    ∃ post, s.data = v.enc ++ post := by
  refine P.Takes.run (m := 0) ?_ s v h
  refine P.Takes.weaken (R := _) (by takes) ?_
  clear h
  intro a w h
  unfold NumberOfUEIPAddresses.enc
  takes_done h

/-- C53. Any accepted input starts with the encoding of the decoded value. -/
theorem C53_NumberOfUEIPAddresses : NumberOfUEIPAddresses.codec.Lossless := by
  intro s v h
  obtain ⟨post, e⟩ := NumberOfUEIPAddresses.takes s v h
  exact ⟨_, post, NumberOfUEIPAddresses.emits v, e⟩

theorem C41_NumberOfUEIPAddresses : NumberOfUEIPAddresses.codec.NoPanic := NumberOfUEIPAddresses.good.run.1
theorem C42_NumberOfUEIPAddresses : NumberOfUEIPAddresses.codec.Local := NumberOfUEIPAddresses.good.run.2
theorem C43_NumberOfUEIPAddresses (flags : UInt8) (v4 v6 : UInt32) :
    NumberOfUEIPAddresses.codec.Builds (NumberOfUEIPAddresses.new flags v4 v6) :=
  ⟨_, NumberOfUEIPAddresses.emits _⟩

example : NumberOfUEIPAddresses.codec.parse ⟨[2, 0, 0, 1, 1, 9], []⟩ = .ok ⟨2, 0, 257⟩ := by decide

/-! ### PacketDelayThresholds, QoSMonitoringMeasurement -/

theorem C52_Delays (flags : UInt8) (dl ul rp : UInt32) :
    Delays.codec.Encodes (Delays.new flags dl ul rp)
      ([flags] ++ (if bit flags 0 then be32 dl else []) ++ (if bit flags 1 then be32 ul else []) ++
        (if bit flags 2 then be32 rp else [])) := by
  unfold Codec.Encodes
  rw [Delays.emits]
  simp only [Delays.enc, Delays.new, Delays.hasDL, Delays.hasUL, Delays.hasRP,
    has1stBit_eq, has2ndBit_eq, has3rdBit_eq, List.append_nil, List.append_assoc]

theorem C40_Delays (flags : UInt8) (dl ul rp : UInt32) :
    Delays.codec.Yields (Delays.new flags dl ul rp)
      ⟨flags, if bit flags 0 then dl else 0, if bit flags 1 then ul else 0,
        if bit flags 2 then rp else 0⟩ := by
  refine ⟨_, Delays.emits _, fun tail sp => ?_⟩
  rw [Delays.reads]
  simp only [Delays.norm, Delays.new, Delays.hasDL, Delays.hasUL, Delays.hasRP,
    has1stBit_eq, has2ndBit_eq, has3rdBit_eq]

theorem Delays.takes (s : Slice) (v : Delays) (h : Delays.codec.parse s = .ok v) :
    ∃ post, s.data = v.enc ++ post := by
  refine P.Takes.run (m := 0) ?_ s v h
  refine P.Takes.weaken (R := _) (by takes) ?_
  clear h
  intro a w h
  unfold Delays.enc
  takes_done h

/-- C53. Any accepted input starts with the encoding of the decoded value. -/
theorem C53_Delays : Delays.codec.Lossless := by
  intro s v h
  obtain ⟨post, e⟩ := Delays.takes s v h
  exact ⟨_, post, Delays.emits v, e⟩

theorem C41_Delays : Delays.codec.NoPanic := Delays.good.run.1
theorem C42_Delays : Delays.codec.Local := Delays.good.run.2
theorem C43_Delays (flags : UInt8) (dl ul rp : UInt32) : Delays.codec.Builds (Delays.new flags dl ul rp) :=
  ⟨_, Delays.emits _⟩

example : Delays.codec.parse ⟨[4, 0, 0, 1, 1, 9], []⟩ = .ok ⟨4, 0, 0, 257⟩ := by decide

/-! ### DLFlowLevelMarking -/

/-- C52, when at least one part is announced (see C43 for the rest). -/
theorem C52_DLFlowLevelMarking_partial (flags : UInt8) (ttc sci : UInt16)
    (h : bit flags 0 = true ∨ bit flags 1 = true) :
    DLFlowLevelMarking.codec.Encodes (DLFlowLevelMarking.new flags ttc sci)
      ([flags] ++ (if bit flags 0 then be16 ttc else []) ++ (if bit flags 1 then be16 sci else [])) := by
  unfold Codec.Encodes
  rw [DLFlowLevelMarking.emits]
  · simp only [DLFlowLevelMarking.enc, DLFlowLevelMarking.new, has1stBit_eq, has2ndBit_eq]
    cases bit flags 0 <;> cases bit flags 1 <;> simp
  · simp only [DLFlowLevelMarking.enc, DLFlowLevelMarking.new, has1stBit_eq, has2ndBit_eq]
    revert h
    cases bit flags 0 <;> cases bit flags 1 <;> simp

theorem C40_DLFlowLevelMarking_partial (flags : UInt8) (ttc sci : UInt16)
    (h : bit flags 0 = true ∨ bit flags 1 = true) :
    DLFlowLevelMarking.codec.Yields (DLFlowLevelMarking.new flags ttc sci)
      ⟨flags, if bit flags 0 then ttc else 0, if bit flags 1 then sci else 0⟩ := by
  refine ⟨_, DLFlowLevelMarking.emits _ ?_, fun tail sp => ?_⟩
  · simp only [DLFlowLevelMarking.enc, DLFlowLevelMarking.new, has1stBit_eq, has2ndBit_eq]
    revert h
    cases bit flags 0 <;> cases bit flags 1 <;> simp
  · rw [DLFlowLevelMarking.reads]
    simp only [DLFlowLevelMarking.norm, DLFlowLevelMarking.new, has1stBit_eq, has2ndBit_eq]
    cases bit flags 0 <;> cases bit flags 1 <;> rfl

theorem DLFlowLevelMarking.takes (s : Slice) (v : DLFlowLevelMarking) (h : DLFlowLevelMarking.codec.parse s = .ok v) :
    ∃ post, s.data = v.enc ++ post := by
  refine P.Takes.run (m := 0) ?_ s v h
  refine P.Takes.weaken (R := _) (by takes) ?_
  clear h
  intro a w h
  unfold DLFlowLevelMarking.enc
  takes_done h

/-- C53, for inputs that announce something. -/
theorem C53_DLFlowLevelMarking_partial (s : Slice) (v : DLFlowLevelMarking)
    (h : DLFlowLevelMarking.codec.parse s = .ok v) (hf : bit v.flags 0 = true ∨ bit v.flags 1 = true) :
    ∃ w post, DLFlowLevelMarking.codec.marshal v = .ok w ∧ s.data = w ++ post := by
  obtain ⟨post, e⟩ := DLFlowLevelMarking.takes s v h
  refine ⟨_, post, DLFlowLevelMarking.emits v ?_, e⟩
  simp only [DLFlowLevelMarking.enc, has1stBit_eq, has2ndBit_eq]
  revert hf
  cases bit v.flags 0 <;> cases bit v.flags 1 <;> simp

/-- C53 is false: a single zero octet is accepted, but what comes out cannot be encoded again. -/
theorem C53_DLFlowLevelMarking_violated :
    DLFlowLevelMarking.codec.parse ⟨[0], []⟩ = .ok ⟨0, 0, 0⟩ ∧
    DLFlowLevelMarking.codec.marshal ⟨0, 0, 0⟩ = .err .unexpectedEOF := by decide

theorem C41_DLFlowLevelMarking : DLFlowLevelMarking.codec.NoPanic := DLFlowLevelMarking.good.run.1
theorem C42_DLFlowLevelMarking : DLFlowLevelMarking.codec.Local := DLFlowLevelMarking.good.run.2
theorem C43_DLFlowLevelMarking_partial (flags : UInt8) (ttc sci : UInt16)
    (h : bit flags 0 = true ∨ bit flags 1 = true) :
    DLFlowLevelMarking.codec.Builds (DLFlowLevelMarking.new flags ttc sci) :=
  ⟨_, C52_DLFlowLevelMarking_partial flags ttc sci h⟩

/-- C43 is false: with neither flag set the encoder asks for two octets of a one-octet buffer. -/
theorem C43_DLFlowLevelMarking_violated (flags : UInt8) (ttc sci : UInt16)
    (h0 : bit flags 0 = false) (h1 : bit flags 1 = false) :
    DLFlowLevelMarking.codec.marshal (DLFlowLevelMarking.new flags ttc sci) = .err .unexpectedEOF := by
  rw [← has1stBit_eq] at h0
  rw [← has2ndBit_eq] at h1
  have hl : (DLFlowLevelMarking.new flags ttc sci).marshalLen = 1 := by
    simp [DLFlowLevelMarking.marshalLen, DLFlowLevelMarking.new, h0, h1]
  show W.marshal _ (DLFlowLevelMarking.marshalLen _) = _
  rw [hl]
  rfl

example : bit 0xfc 0 = false ∧ bit 0xfc 1 = false ∧ bit 2 1 = true := by decide
example : DLFlowLevelMarking.codec.parse ⟨[2, 1, 1, 9], []⟩ = .ok ⟨2, 0, 257⟩ := by decide

/-! ### PacketRate -/

theorem PacketRate.announced (flags ulUnit dlUnit : UInt8) (ulRate dlRate : UInt16)
    (h : bit flags 0 = true ∨ bit flags 1 = true) :
    2 ≤ (PacketRate.new flags ulUnit ulRate dlUnit dlRate).enc.length := by
  simp only [PacketRate.enc, PacketRate.new, has1stBit_eq, has2ndBit_eq]
  revert h
  cases bit flags 0 <;> cases bit flags 1 <;> simp

theorem C52_PacketRate_partial (flags ulUnit dlUnit : UInt8) (ulRate dlRate : UInt16)
    (h : bit flags 0 = true ∨ bit flags 1 = true) :
    PacketRate.codec.Encodes (PacketRate.new flags ulUnit ulRate dlUnit dlRate)
      ([flags] ++ (if bit flags 0 then ulUnit :: be16 ulRate else []) ++
        (if bit flags 1 then dlUnit :: be16 dlRate else [])) := by
  unfold Codec.Encodes
  rw [PacketRate.emits _ (PacketRate.announced _ _ _ _ _ h)]
  simp only [PacketRate.enc, PacketRate.new, has1stBit_eq, has2ndBit_eq]
  cases bit flags 0 <;> cases bit flags 1 <;> simp

theorem C40_PacketRate_partial (flags ulUnit dlUnit : UInt8) (ulRate dlRate : UInt16)
    (h : bit flags 0 = true ∨ bit flags 1 = true) :
    PacketRate.codec.Yields (PacketRate.new flags ulUnit ulRate dlUnit dlRate)
      ⟨flags, if bit flags 0 then ulUnit else 0, if bit flags 1 then dlUnit else 0,
        if bit flags 0 then ulRate else 0, if bit flags 1 then dlRate else 0⟩ := by
  have ha := PacketRate.announced flags ulUnit dlUnit ulRate dlRate h
  refine ⟨_, PacketRate.emits _ ha, fun tail sp => ?_⟩
  rw [PacketRate.reads _ ha]
  simp only [PacketRate.norm, PacketRate.new, has1stBit_eq, has2ndBit_eq]
  cases bit flags 0 <;> cases bit flags 1 <;> rfl

theorem PacketRate.takes (s : Slice) (v : PacketRate) (h : PacketRate.codec.parse s = .ok v) :
    ∃ post, s.data = v.enc ++ post := by
  have hr : ∀ k, P.Takes k PacketRate.rateP 0 (fun x w => w = [x.1] ++ be16 x.2) := by
    intro k
    refine P.Takes.weaken (R := _) (by unfold PacketRate.rateP; takes) ?_
    intro a w h
    takes_done h
  refine P.Takes.run (m := 0) ?_ s v h
  refine P.Takes.weaken (R := _) (P.Takes.bind P.Takes.u8 fun _ =>
      P.Takes.bind (P.Takes.optIf (hr _)) fun _ => P.Takes.bind (P.Takes.optIf (hr _)) fun _ => P.Takes.pure _) ?_
  clear h
  intro a w h
  unfold PacketRate.enc
  takes_done h

/-- C53, for inputs that announce something. -/
theorem C53_PacketRate_partial (s : Slice) (v : PacketRate)
    (h : PacketRate.codec.parse s = .ok v) (hf : bit v.flags 0 = true ∨ bit v.flags 1 = true) :
    ∃ w post, PacketRate.codec.marshal v = .ok w ∧ s.data = w ++ post := by
  obtain ⟨post, e⟩ := PacketRate.takes s v h
  refine ⟨_, post, PacketRate.emits v ?_, e⟩
  simp only [PacketRate.enc, has1stBit_eq, has2ndBit_eq]
  revert hf
  cases bit v.flags 0 <;> cases bit v.flags 1 <;> simp

/-- C53 is false: two zero octets are accepted, but what comes out cannot be encoded again. -/
theorem C53_PacketRate_violated :
    PacketRate.codec.parse ⟨[0, 0], []⟩ = .ok ⟨0, 0, 0, 0, 0⟩ ∧
    PacketRate.codec.marshal ⟨0, 0, 0, 0, 0⟩ = .err .unexpectedEOF := by decide

theorem C41_PacketRate : PacketRate.codec.NoPanic := PacketRate.good.run.1
theorem C42_PacketRate : PacketRate.codec.Local := PacketRate.good.run.2
theorem C43_PacketRate_partial (flags ulUnit dlUnit : UInt8) (ulRate dlRate : UInt16)
    (h : bit flags 0 = true ∨ bit flags 1 = true) :
    PacketRate.codec.Builds (PacketRate.new flags ulUnit ulRate dlUnit dlRate) :=
  ⟨_, C52_PacketRate_partial flags ulUnit dlUnit ulRate dlRate h⟩

/-- C43 is false: with neither direction announced the encoder fails. -/
theorem C43_PacketRate_violated (flags ulUnit dlUnit : UInt8) (ulRate dlRate : UInt16)
    (h0 : bit flags 0 = false) (h1 : bit flags 1 = false) :
    PacketRate.codec.marshal (PacketRate.new flags ulUnit ulRate dlUnit dlRate) = .err .unexpectedEOF := by
  rw [← has1stBit_eq] at h0
  rw [← has2ndBit_eq] at h1
  have hl : (PacketRate.new flags ulUnit ulRate dlUnit dlRate).marshalLen = 1 := by
    simp [PacketRate.marshalLen, PacketRate.new, h0, h1]
  show W.marshal _ (PacketRate.marshalLen _) = _
  rw [hl]
  rfl

example : PacketRate.codec.parse ⟨[2, 3, 1, 1, 9], []⟩ = .ok ⟨2, 0, 3, 0, 257⟩ := by decide

/-! ### PacketRateStatus -/

theorem C52_PacketRateStatus (flags : UInt8) (ul aul dl adl : UInt16) (t : Time) :
    PacketRateStatus.codec.Encodes (PacketRateStatus.new flags ul aul dl adl t)
      ([flags] ++ (if bit flags 0 then be16 ul else []) ++ (if bit flags 0 && bit flags 2 then be16 aul else []) ++
        (if bit flags 1 then be16 dl else []) ++ (if bit flags 1 && bit flags 2 then be16 adl else []) ++
        be64 (ntpSeconds t)) := by
  unfold Codec.Encodes
  rw [PacketRateStatus.emits]
  simp only [PacketRateStatus.enc, PacketRateStatus.new, PacketRateStatus.hasUL, PacketRateStatus.hasDL,
    PacketRateStatus.hasAPR, has1stBit_eq, has2ndBit_eq, has3rdBit_eq]
  cases bit flags 0 <;> cases bit flags 1 <;> cases bit flags 2 <;> simp

/-- Whole seconds between 1900 and the limits of `time.Duration` (1900 + 292 years) survive. -/
theorem ofNtp64_ntpSeconds (s : Int) (h0 : -2208988800 ≤ s) (h1 : s < 7014383236) :
    PacketRateStatus.ofNtp64 (ntpSeconds (unix s)) = unix s := by
  obtain ⟨n, hn⟩ : ∃ n : Nat, s + 2208988800 = n := ⟨(s + 2208988800).toNat, by omega⟩
  have hs : s = (n : Int) - 2208988800 := by omega
  subst hs
  unfold PacketRateStatus.ofNtp64
  rw [ntpSeconds_eq n (by omega), sub_toInt n (by omega)]

/-- C40, for validity times in whole seconds from 1900 to 2192 (the wire has 64-bit seconds, but the encoder goes
through `time.Duration`). -/
theorem C40_PacketRateStatus_partial (flags : UInt8) (ul aul dl adl : UInt16) (s : Int)
    (h0 : -2208988800 ≤ s) (h1 : s < 7014383236) :
    PacketRateStatus.codec.Yields (PacketRateStatus.new flags ul aul dl adl (unix s))
      ⟨flags, if bit flags 0 then ul else 0, if bit flags 0 && bit flags 2 then aul else 0,
        if bit flags 1 then dl else 0, if bit flags 1 && bit flags 2 then adl else 0, unix s⟩ := by
  refine ⟨_, PacketRateStatus.emits _, fun tail sp => ?_⟩
  rw [PacketRateStatus.reads]
  simp only [PacketRateStatus.norm, PacketRateStatus.new, PacketRateStatus.hasUL, PacketRateStatus.hasDL,
    PacketRateStatus.hasAPR, has1stBit_eq, has2ndBit_eq, has3rdBit_eq, ofNtp64_ntpSeconds s h0 h1]
  cases bit flags 0 <;> cases bit flags 1 <;> cases bit flags 2 <;> rfl

/-- Outside that range the time comes back different: every instant from 2192 on is read as the same one. -/
theorem C40_PacketRateStatus_violated :
    ∃ w, PacketRateStatus.codec.marshal (PacketRateStatus.new 0 0 0 0 0 (unix 9000000000)) = .ok w ∧
      PacketRateStatus.codec.parse ⟨w, []⟩ = .ok ⟨0, 0, 0, 0, 0, unix 7014383236⟩ :=
  ⟨_, PacketRateStatus.emits _, by decide +kernel⟩

theorem PacketRateStatus.takes (s : Slice) (v : PacketRateStatus) (h : PacketRateStatus.codec.parse s = .ok v) :
    ∃ w post, s.data = w ++ post ∧ (∃ n : Nat, n < 2 ^ 64 ∧ v.vtime = PacketRateStatus.ofNtp64 (UInt64.ofNat n) ∧
      (ntpSeconds v.vtime = UInt64.ofNat n → w = PacketRateStatus.enc v)) ∧ 2 ≤ s.data.length := by
  have hd : ∀ k c, P.Takes k (PacketRateStatus.dirP c) 0
      (fun x w => w = be16 x.1 ++ ((if c then be16 x.2 else []) ++ [])) := by
    intro k c
    refine P.Takes.weaken (R := _) (by unfold PacketRateStatus.dirP; takes) ?_
    intro a w h
    takes_done h
  refine P.Takes.run' (m := 0) (R := fun v w => ∃ n : Nat, n < 2 ^ 64 ∧
    v.vtime = PacketRateStatus.ofNtp64 (UInt64.ofNat n) ∧
    (ntpSeconds v.vtime = UInt64.ofNat n → w = PacketRateStatus.enc v)) ?_ s v h
  refine P.Takes.weaken (R := _) (P.Takes.bind P.Takes.u8 fun _ =>
      P.Takes.bind (P.Takes.optIf (hd _ _)) fun _ => P.Takes.bind (P.Takes.optIf (hd _ _)) fun _ =>
      P.Takes.bind P.Takes.f64 fun _ => P.Takes.pure _) ?_
  rintro a w ⟨flags, _, _, rfl, ⟨u, _, _, rfl, ⟨d, _, _, rfl, ⟨t, _, _, rfl, ⟨rfl, rfl⟩, rfl⟩, rfl⟩,
    rfl⟩, rfl⟩
  refine ⟨t.toNat, t.toNat_lt, by simp, ?_⟩
  intro h
  have h' : ntpSeconds (PacketRateStatus.ofNtp64 t) = t := by simpa using h
  unfold PacketRateStatus.enc
  simp only [h']

/-- C53, for validity times until 2192. -/
theorem C53_PacketRateStatus_partial (s : Slice) (v : PacketRateStatus)
    (h : PacketRateStatus.codec.parse s = .ok v) (h0 : unix (-2208988800) ≤ v.vtime)
    (h1 : v.vtime < unix 7014383236) :
    ∃ w post, PacketRateStatus.codec.marshal v = .ok w ∧ s.data = w ++ post := by
  obtain ⟨w, post, e, ⟨n, hn, hv, hw⟩, _⟩ := PacketRateStatus.takes s v h
  refine ⟨_, post, PacketRateStatus.emits v, ?_⟩
  rw [e, hw]
  rw [hv] at h0 h1 ⊢
  unfold PacketRateStatus.ofNtp64 at h0 h1 ⊢
  have hx : (UInt64.ofNat n - 2208988800).toInt64.toInt
      = Int.bmod (((2 ^ 64 - 2208988800 + n) % 2 ^ 64 : Nat) : Int) (2 ^ 64) := by
    show (UInt64.ofNat n - 2208988800).toBitVec.toInt = _
    rw [BitVec.toInt_eq_toNat_bmod]
    show Int.bmod ((UInt64.ofNat n - 2208988800).toNat : Int) (2 ^ 64) = _
    rw [UInt64.toNat_sub, UInt64.toNat_ofNat', Nat.mod_eq_of_lt (a := n) hn]
    rfl
  have hb : n * 1000000000 < 2 ^ 63 := by
    rw [hx] at h0 h1
    generalize hy : Int.bmod (((2 ^ 64 - 2208988800 + n) % 2 ^ 64 : Nat) : Int) (2 ^ 64) = y at h0 h1
    have h0' : (-2208988800 : Int) * 1000000000 ≤ y * 1000000000 := h0
    have h1' : y * 1000000000 < (7014383236 : Int) * 1000000000 := h1
    rw [Int.bmod_def] at hy
    omega
  rw [sub_toInt n (by omega), ntpSeconds_eq n hb]

/-- C53 is false: a validity time after 2192 is re-encoded as one in 2192. -/
theorem C53_PacketRateStatus_violated :
    ∃ v, PacketRateStatus.codec.parse ⟨[0, 0, 0, 0, 3, 0, 0, 0, 0], []⟩ = .ok v ∧
      PacketRateStatus.codec.marshal v = .ok [0, 0, 0, 0, 2, 0x25, 0xc1, 0x7d, 0x04] := by
  refine ⟨_, rfl, ?_⟩
  decide +kernel

theorem C41_PacketRateStatus : PacketRateStatus.codec.NoPanic := PacketRateStatus.good.run.1
theorem C42_PacketRateStatus : PacketRateStatus.codec.Local := PacketRateStatus.good.run.2
theorem C43_PacketRateStatus (flags : UInt8) (ul aul dl adl : UInt16) (t : Time) :
    PacketRateStatus.codec.Builds (PacketRateStatus.new flags ul aul dl adl t) :=
  ⟨_, PacketRateStatus.emits _⟩

example : PacketRateStatus.codec.parse ⟨[5, 0, 1, 0, 2, 0, 0, 0, 0, 0x83, 0xaa, 0x7e, 0x80], []⟩
    = .ok ⟨5, 1, 2, 0, 0, 0⟩ := by decide +kernel

end Fields
end Pfcp
