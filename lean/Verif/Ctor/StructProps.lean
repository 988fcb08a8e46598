/-
Property theorems about structured elements made by their constructors (C59): through the wire and back to the values
given. `g` is the set of grouped types in force (it must not contain the type of the element, and the default set does
not, `C59_default`), `mem` the bytes that follow a payload in memory; both arbitrary. The expected values are spelled out
with `bit`, the bit number from 0.
-/
import Verif.Ctor.Struct
import Verif.Ctor.GroupProps

namespace Pfcp
open Fields

/-- The element types made by the constructors of this file. -/
def structTypes : List IEType :=
  [T.AlternativeSMFIPAddress, T.CPPFCPEntityIPAddress, T.CTAG, T.STAG, T.DLFlowLevelMarking, T.FSEID, T.FTEID,
   T.HeaderEnrichment, T.IPMulticastAddress, T.MACAddressesDetected, T.MACAddressesRemoved, T.MACAddress,
   T.MPTCPAddressInformation, T.NumberOfUEIPAddresses, T.OuterHeaderCreation, T.PacketDelayThresholds,
   T.QoSMonitoringMeasurement, T.PacketRateStatus, T.PacketRate, T.PFDContents, T.PMFAddressInformation,
   T.RedirectInformation, T.RemoteGTPUPeer, T.SDFFilter, T.SourceIPAddress, T.SubsequentVolumeQuota,
   T.SubsequentVolumeThreshold, T.VolumeQuota, T.VolumeThreshold, T.VolumeMeasurement, T.TraceInformation,
   T.UEIPAddress, T.UELinkSpecificIPAddress, T.UserID, T.UserPlaneIPResourceInformation]

/-- With the default set of grouped types, all of the theorems apply; and no type is made by two constructors. -/
theorem C59_default : (∀ t ∈ structTypes, defaultGroupedTypes.contains t = false ∧ isVendor t = false) ∧
    structTypes.Nodup ∧ structTypes.length = 35 := by
  decide +kernel

/-- Proves `w.length ≤ 65535` for octets made of conditional parts of known sizes. -/
macro "fits" : tactic => `(tactic|
  (simp only [List.length_append, apply_ite List.length, be16_length, be32_length, be64_length, List.length_nil,
    List.length_cons] <;> (repeat' split) <;> omega))

section
variable (g : IEType → Bool) (mem : IE → Bytes)

/-! ### Volumes -/

theorem volume_fits (flags : UInt8) (t u d : UInt64) :
    ([flags] ++ (if bit flags 0 then be64 t else []) ++ (if bit flags 1 then be64 u else []) ++
        (if bit flags 2 then be64 d else [])).length ≤ 65535 := by fits

/-- Volume quotas and thresholds, when at least one volume is announced: each volume announced comes back, the others
are 0. -/
theorem C59_volume_partial (flags : UInt8) (t u d : UInt64)
    (h : bit flags 0 = true ∨ bit flags 1 = true ∨ bit flags 2 = true) :
    let v := Val.volume ⟨flags, if bit flags 0 then t else 0, if bit flags 1 then u else 0, if bit flags 2 then d else 0⟩
    (g T.VolumeQuota = false → Carries g mem (newVolumeQuota flags t u d) T.VolumeQuota .VolumeQuota v) ∧
    (g T.VolumeThreshold = false → Carries g mem (newVolumeThreshold flags t u d) T.VolumeThreshold .VolumeThreshold v) ∧
    (g T.SubsequentVolumeQuota = false →
      Carries g mem (newSubsequentVolumeQuota flags t u d) T.SubsequentVolumeQuota .SubsequentVolumeQuota v) ∧
    (g T.SubsequentVolumeThreshold = false →
      Carries g mem (newSubsequentVolumeThreshold flags t u d) T.SubsequentVolumeThreshold .SubsequentVolumeThreshold v) := by
  have he := C52_Volume flags t u d
  have hp := (yields_exact (C40_Volume_partial flags t u d h) he)
  have hw := volume_fits flags t u d
  exact ⟨fun hg => carries Volume.codec .volume .volume he hw hg hp (by decide +kernel) rfl (fun _ _ => rfl),
    fun hg => carries Volume.codec .volume .volume he hw hg hp (by decide +kernel) rfl (fun _ _ => rfl),
    fun hg => carries Volume.codec .volume .volume he hw hg hp (by decide +kernel) rfl (fun _ _ => rfl),
    fun hg => carries Volume.codec .volume .volume he hw hg hp (by decide +kernel) rfl (fun _ _ => rfl)⟩

example : bit 0x05 0 = true ∧ bit 0x05 1 = false ∧ bit 0x05 2 = true := by decide

/-- With no volume announced, the element cannot be read. -/
theorem C59_volume_violated (t u d : UInt64) (hg : g T.VolumeQuota = false) :
    ∃ i b, newVolumeQuota 0 t u d = .ok (some i) ∧ i.marshal g = .ok b ∧ parse g b = .ok i ∧
      Acc.VolumeQuota.call g mem i = .err .unexpectedEOF := by
  have he := C52_Volume 0 t u d
  have hw := volume_fits 0 t u d
  have e : newVolumeQuota 0 t u d = .ok (some (IE.new T.VolumeQuota [0])) := by
    unfold newVolumeQuota
    rw [show Volume.codec.marshal (Volume.new 0 t u d) = .ok [0] from he]
    rfl
  obtain ⟨b, h1, h2⟩ := new_wire g T.VolumeQuota [0] [] hg (by decide) (by decide)
  refine ⟨_, b, e, h1, by rwa [List.append_nil] at h2, ?_⟩
  rw [call_leaf g mem .VolumeQuota _ .volume rfl (Nat.zero_le _)]
  rfl

/-- Volume measurements, when at least one number is announced. -/
theorem C59_volume_measurement_partial (flags : UInt8) (t u d tp up dp : UInt64) (h : ∃ i, i < 6 ∧ bit flags i = true)
    (hg : g T.VolumeMeasurement = false) :
    Carries g mem (newVolumeMeasurement flags t u d tp up dp) T.VolumeMeasurement .VolumeMeasurement
      (.volumeMeasurement ⟨flags, if bit flags 0 then t else 0, if bit flags 1 then u else 0, if bit flags 2 then d else 0,
        if bit flags 3 then tp else 0, if bit flags 4 then up else 0, if bit flags 5 then dp else 0⟩) := by
  have he := C52_VolumeMeasurement flags t u d tp up dp
  have hp := (yields_exact (C40_VolumeMeasurement_partial flags t u d tp up dp h) he)
  exact carries VolumeMeasurement.codec .volumeMeasurement .volumeMeasurement he (by fits) hg hp (by decide +kernel) rfl
    (fun _ _ => rfl)

example : ∃ i, i < 6 ∧ bit 0x08 i = true := ⟨3, by decide, by decide⟩

/-! ### Other numbers -/

/-- Numbers of UE addresses. -/
theorem C59_number_of_ue_ip_addresses (flags : UInt8) (v4 v6 : UInt32) (hg : g T.NumberOfUEIPAddresses = false) :
    Carries g mem (newNumberOfUEIPAddresses flags v4 v6) T.NumberOfUEIPAddresses .NumberOfUEIPAddresses
      (.numberOfUEIPAddresses ⟨flags, if bit flags 0 then v4 else 0, if bit flags 1 then v6 else 0⟩) := by
  have he := C52_NumberOfUEIPAddresses flags v4 v6
  exact carries NumberOfUEIPAddresses.codec .numberOfUEIPAddresses .numberOfUEIPAddresses he (by fits) hg
    ((yields_exact (C40_NumberOfUEIPAddresses flags v4 v6) he)) (by decide +kernel) rfl (fun _ _ => rfl)

/-- Packet delay thresholds and measurements. -/
theorem C59_delays (flags : UInt8) (dl ul rp : UInt32) :
    let v := Val.delays ⟨flags, if bit flags 0 then dl else 0, if bit flags 1 then ul else 0, if bit flags 2 then rp else 0⟩
    (g T.PacketDelayThresholds = false →
      Carries g mem (newPacketDelayThresholds flags dl ul rp) T.PacketDelayThresholds .PacketDelayThresholds v) ∧
    (g T.QoSMonitoringMeasurement = false →
      Carries g mem (newQoSMonitoringMeasurement flags dl ul rp) T.QoSMonitoringMeasurement .QoSMonitoringMeasurement v) := by
  have he := C52_Delays flags dl ul rp
  have hp := (yields_exact (C40_Delays flags dl ul rp) he)
  have hw : ([flags] ++ (if bit flags 0 then be32 dl else []) ++ (if bit flags 1 then be32 ul else []) ++
      (if bit flags 2 then be32 rp else [])).length ≤ 65535 := by fits
  exact ⟨fun hg => carries Delays.codec .delays .delays he hw hg hp (by decide +kernel) rfl (fun _ _ => rfl),
    fun hg => carries Delays.codec .delays .delays he hw hg hp (by decide +kernel) rfl (fun _ _ => rfl)⟩

/-- Flow level markings, when at least one part is announced (else the constructor returns nil, C43). -/
theorem C59_dl_flow_level_marking_partial (flags : UInt8) (ttc sci : UInt16) (h : bit flags 0 = true ∨ bit flags 1 = true)
    (hg : g T.DLFlowLevelMarking = false) :
    Carries g mem (newDLFlowLevelMarking flags ttc sci) T.DLFlowLevelMarking .DLFlowLevelMarking
      (.dlFlowLevelMarking ⟨flags, if bit flags 0 then ttc else 0, if bit flags 1 then sci else 0⟩) := by
  have he := C52_DLFlowLevelMarking_partial flags ttc sci h
  exact carries DLFlowLevelMarking.codec .dlFlowLevelMarking .dlFlowLevelMarking he (by fits) hg
    ((yields_exact (C40_DLFlowLevelMarking_partial flags ttc sci h) he)) (by decide +kernel) rfl (fun _ _ => rfl)

example : bit 0x02 0 = false ∧ bit 0x02 1 = true := by decide

/-- Packet rates, when at least one direction is announced. -/
theorem C59_packet_rate_partial (flags ulUnit dlUnit : UInt8) (ulRate dlRate : UInt16)
    (h : bit flags 0 = true ∨ bit flags 1 = true) (hg : g T.PacketRate = false) :
    Carries g mem (newPacketRate flags ulUnit ulRate dlUnit dlRate) T.PacketRate .PacketRate
      (.packetRate ⟨flags, if bit flags 0 then ulUnit else 0, if bit flags 1 then dlUnit else 0,
        if bit flags 0 then ulRate else 0, if bit flags 1 then dlRate else 0⟩) := by
  have he := C52_PacketRate_partial flags ulUnit dlUnit ulRate dlRate h
  exact carries PacketRate.codec .packetRate .packetRate he (by fits) hg
    ((yields_exact (C40_PacketRate_partial flags ulUnit dlUnit ulRate dlRate h) he)) (by decide +kernel) rfl (fun _ _ => rfl)

/-- Without any direction announced, both constructors return nil. -/
theorem C59_nil_violated (flags a b : UInt8) (c d : UInt16) (h0 : bit flags 0 = false) (h1 : bit flags 1 = false) :
    newPacketRate flags a c b d = .ok none ∧ newDLFlowLevelMarking flags c d = .ok none := by
  unfold newPacketRate newDLFlowLevelMarking
  rw [C43_PacketRate_violated flags a b c d h0 h1, C43_DLFlowLevelMarking_violated flags c d h0 h1]
  exact ⟨rfl, rfl⟩

example : bit 0 0 = false ∧ bit 0 1 = false := by decide

/-- Packet rate statuses, valid until some second of the years 1900 to 2036 or 2036 to 2172 (see C40). -/
theorem C59_packet_rate_status_partial (flags : UInt8) (ul aul dl adl : UInt16) (s : Int) (h0 : -2208988800 ≤ s)
    (h1 : s < 7014383236) (hg : g T.PacketRateStatus = false) :
    Carries g mem (newPacketRateStatus flags ul aul dl adl (unix s)) T.PacketRateStatus .PacketRateStatus
      (.packetRateStatus ⟨flags, if bit flags 0 then ul else 0, if bit flags 0 && bit flags 2 then aul else 0,
        if bit flags 1 then dl else 0, if bit flags 1 && bit flags 2 then adl else 0, unix s⟩) := by
  have he := C52_PacketRateStatus flags ul aul dl adl (unix s)
  exact carries PacketRateStatus.codec .packetRateStatus .packetRateStatus he (by fits) hg
    ((yields_exact (C40_PacketRateStatus_partial flags ul aul dl adl s h0 h1) he)) (by decide +kernel) rfl (fun _ _ => rfl)

example : (-2208988800 : Int) ≤ 1700000000 ∧ (1700000000 : Int) < 7014383236 := by decide

/-- C-TAGs and S-TAGs with a VLAN identifier below 256. -/
theorem C59_tag_partial (flags pcp dei : UInt8) (cvid : UInt16) (hp : pcp.toNat < 8) (hd : dei.toNat < 2)
    (hc : cvid.toNat < 256) :
    let v := Val.tag ⟨flags, if bit flags 0 then pcp else 0, if bit flags 1 then dei else 0, if bit flags 2 then cvid else 0⟩
    (g T.CTAG = false → Carries g mem (newCTAG flags pcp dei cvid) T.CTAG .CTAG v) ∧
    (g T.STAG = false → Carries g mem (newSTAG flags pcp dei cvid) T.STAG .STAG v) := by
  have he := C52_Tag flags pcp dei cvid hp hd (by omega)
  have hr := (yields_exact (C40_Tag_partial flags pcp dei cvid hp hd hc) he)
  exact ⟨fun hg => carries Tag.codec .tag .tag he (by fits) hg hr (by decide +kernel) rfl (fun _ _ => rfl),
    fun hg => carries Tag.codec .tag .tag he (by fits) hg hr (by decide +kernel) rfl (fun _ _ => rfl)⟩

example : (7 : UInt8).toNat < 8 ∧ (1 : UInt8).toNat < 2 ∧ (100 : UInt16).toNat < 256 := by decide

/-! ### Addresses -/

/-- Addresses of an alternative SMF or of a CP entity, when at least one is given. -/
theorem C59_ip46_partial (v4 v6 : IP) (h4 : v4.Is4) (h6 : v6.Is16) (h : v4.isSome = true ∨ v6.isSome = true) :
    let v := Val.ip46 ⟨(if v4.isSome then 2 else 0) + (if v6.isSome then 1 else 0), v4.as4, v6.as16⟩
    (g T.AlternativeSMFIPAddress = false →
      Carries g mem (newAlternativeSMFIPAddress v4 v6) T.AlternativeSMFIPAddress .AlternativeSMFIPAddress v) ∧
    (g T.CPPFCPEntityIPAddress = false →
      Carries g mem (newCPPFCPEntityIPAddress v4 v6) T.CPPFCPEntityIPAddress .CPPFCPEntityIPAddress v) := by
  have he := C52_IP46 v4 v6 h4 h6
  have hp := (yields_exact (C40_IP46_partial v4 v6 h4 h6 h) he)
  have hw : ([(if v4.isSome then 2 else 0) + (if v6.isSome then 1 else 0)] ++ wire4 v4 ++ wire16 v6 : Bytes).length
      ≤ 65535 := by
    have := wire4_le h4
    have := wire16_le h6
    fits
  exact ⟨fun hg => carries IP46.codec .ip46 .ip46 he hw hg hp (by decide +kernel) rfl (fun _ _ => rfl),
    fun hg => carries IP46.codec .ip46 .ip46 he hw hg hp (by decide +kernel) rfl (fun _ _ => rfl)⟩

/-- F-SEIDs. -/
theorem C59_fseid (seid : UInt64) (v4 v6 : IP) (h4 : v4.Is4) (h6 : v6.Is16) (hg : g T.FSEID = false) :
    Carries g mem (newFSEID seid v4 v6) T.FSEID .FSEID
      (.fseid ⟨(if v4.isSome then 2 else 0) + (if v6.isSome then 1 else 0), seid, v4.as4, v6.as16⟩) := by
  have he := C52_FSEID seid v4 v6 h4 h6
  have := wire4_le h4
  have := wire16_le h6
  exact carries FSEID.codec .fseid .fseid he (by fits) hg ((yields_exact (C40_FSEID seid v4 v6 h4 h6) he)) (by decide +kernel) rfl
    (fun _ _ => rfl)

example : IP.Is4 (some [192, 0, 2, 1]) ∧ IP.Is16 none := by
  constructor
  · intro a ha; cases ha; exact Or.inl rfl
  · intro a ha; cases ha

/-- F-TEIDs: with the CH flag the choose identifier comes back, else the TEID and the addresses announced. -/
theorem C59_fteid (flags : UInt8) (teid : UInt32) (v4 v6 : IP) (chid : UInt8) (h : FTEIDArgs flags v4 v6)
    (hg : g T.FTEID = false) :
    Carries g mem (newFTEID flags teid v4 v6 chid) T.FTEID .FTEID
      (.fteid (if bit flags 2 then ⟨flags, 0, none, none, if bit flags 3 then chid else 0⟩
      else ⟨flags, teid, if bit flags 0 then v4.as4 else none, if bit flags 1 then v6.as16 else none, 0⟩)) := by
  have he := C52_FTEID flags teid v4 v6 chid h
  refine carries FTEID.codec .fteid .fteid he ?_ hg ((yields_exact (C40_FTEID flags teid v4 v6 chid h) he)) (by decide +kernel) rfl
    (fun _ _ => rfl)
  by_cases h2 : bit flags 2 = true
  · simp only [h2, if_true]
    fits
  · have h2 := eq_false_of_ne_true h2
    have a1 := length_ite_le (bit flags 0 = true) (wire4 v4) 4 fun hc => wire4_le ((h h2).1 hc).2
    have a2 := length_ite_le (bit flags 1 = true) (wire16 v6) 16 fun hc => wire16_le ((h h2).2 hc).2
    simp only [h2, List.length_append, be32_length, List.length_cons, List.length_nil, Bool.false_eq_true, if_false]
    omega

/-- MPTCP proxy addresses. -/
theorem C59_mptcp_address_information (ptype : UInt8) (port : UInt16) (v4 v6 : IP) (h4 : v4.Is4) (h6 : v6.Is16)
    (hg : g T.MPTCPAddressInformation = false) :
    Carries g mem (newMPTCPAddressInformation ptype port v4 v6) T.MPTCPAddressInformation .MPTCPAddressInformation
      (.mptcpAddressInformation
        ⟨(if v4.isSome then 1 else 0) + (if v6.isSome then 2 else 0), ptype, port, v4.as4, v6.as16⟩) := by
  have he := C52_MPTCPAddressInformation ptype port v4 v6 h4 h6
  have := wire4_le h4
  have := wire16_le h6
  exact carries MPTCPAddressInformation.codec .mptcpAddressInformation .mptcpAddressInformation he (by fits) hg
    ((yields_exact (C40_MPTCPAddressInformation ptype port v4 v6 h4 h6) he)) (by decide +kernel) rfl (fun _ _ => rfl)

/-- Link specific UE addresses. -/
theorem C59_ue_link_specific_ip_address (v4 v6 n4 n6 : IP) (h4 : v4.Is4) (h6 : v6.Is16) (g4 : n4.Is4) (g6 : n6.Is16)
    (hg : g T.UELinkSpecificIPAddress = false) :
    Carries g mem (newUELinkSpecificIPAddress v4 v6 n4 n6) T.UELinkSpecificIPAddress .UELinkSpecificIPAddress
      (.ueLinkSpecificIPAddress ⟨(if v4.isSome then 1 else 0) + (if v6.isSome then 2 else 0) +
        (if n4.isSome then 4 else 0) + (if n6.isSome then 8 else 0), v4.as4, v6.as16, n4.as4, n6.as16⟩) := by
  have he := C52_UELinkSpecificIPAddress v4 v6 n4 n6 h4 h6 g4 g6
  have := wire4_le h4
  have := wire16_le h6
  have := wire4_le g4
  have := wire16_le g6
  exact carries UELinkSpecificIPAddress.codec .ueLinkSpecificIPAddress .ueLinkSpecificIPAddress he (by fits) hg
    ((yields_exact (C40_UELinkSpecificIPAddress v4 v6 n4 n6 h4 h6 g4 g6) he)) (by decide +kernel) rfl (fun _ _ => rfl)

/-- Source addresses, when at least one part is given. -/
theorem C59_source_ip_address_partial (v4 v6 : IP) (mpl : UInt8) (h4 : v4.Is4) (h6 : v6.Is16)
    (h : v4.isSome = true ∨ v6.isSome = true ∨ mpl ≠ 0) (hg : g T.SourceIPAddress = false) :
    Carries g mem (newSourceIPAddress v4 v6 mpl) T.SourceIPAddress .SourceIPAddress
      (.sourceIPAddress ⟨(if v4.isSome then 2 else 0) + (if v6.isSome then 1 else 0) + (if mpl = 0 then 0 else 4),
        v4.as4, v6.as16, mpl⟩) := by
  have he := C52_SourceIPAddress v4 v6 mpl h4 h6
  have := wire4_le h4
  have := wire16_le h6
  exact carries SourceIPAddress.codec .sourceIPAddress .sourceIPAddress he (by fits) hg
    ((yields_exact (C40_SourceIPAddress_partial v4 v6 mpl h4 h6 h) he)) (by decide +kernel) rfl (fun _ _ => rfl)

/-- UE addresses, unless a delegation size and a prefix length are both announced. -/
theorem C59_ue_ip_address_partial (flags : UInt8) (v4 v6 : IP) (d pl : UInt8) (h : UEIPAddressArgs flags v4 v6)
    (hb : ¬ (bit flags 3 = true ∧ bit flags 6 = true)) (hg : g T.UEIPAddress = false) :
    Carries g mem (newUEIPAddress flags v4 v6 d pl) T.UEIPAddress .UEIPAddress
      (.ueIPAddress ⟨flags, if bit flags 1 && !bit flags 4 then v4.as4 else none,
        if bit flags 0 && !bit flags 5 then v6.as16 else none, if bit flags 3 then d else 0,
        if bit flags 6 then pl else 0⟩) := by
  have he := C52_UEIPAddress flags v4 v6 d pl h
  refine carries UEIPAddress.codec .ueIPAddress .ueIPAddress he ?_ hg
    ((yields_exact (C40_UEIPAddress_partial flags v4 v6 d pl h hb) he)) (by decide +kernel) rfl (fun _ _ => rfl)
  have a1 := length_ite_le ((bit flags 1 && !bit flags 4) = true) (wire4 v4) 4 fun hc => by
    rw [Bool.and_eq_true, Bool.not_eq_true'] at hc
    exact wire4_le (h.1 hc.1 hc.2).2
  have a2 := length_ite_le ((bit flags 0 && !bit flags 5) = true) (wire16 v6) 16 fun hc => by
    rw [Bool.and_eq_true, Bool.not_eq_true'] at hc
    exact wire16_le (h.2 hc.1 hc.2).2
  have a3 := length_ite_le (bit flags 3 = true) [d] 1 fun _ => Nat.le_refl _
  have a4 := length_ite_le (bit flags 6 = true) [pl] 1 fun _ => Nat.le_refl _
  simp only [List.length_append, List.length_cons, List.length_nil]
  omega

/-- With both announced, the prefix length read is the delegation size. -/
theorem C59_ue_ip_address_violated (flags : UInt8) (v4 v6 : IP) (d pl : UInt8) (h : UEIPAddressArgs flags v4 v6)
    (hb : bit flags 3 = true ∧ bit flags 6 = true) (hg : g T.UEIPAddress = false) :
    ∃ v, Carries g mem (newUEIPAddress flags v4 v6 d pl) T.UEIPAddress .UEIPAddress (.ueIPAddress v) ∧ v.v6pl = d := by
  obtain ⟨w, v, h1, h2, -, h3⟩ := C40_UEIPAddress_violated flags v4 v6 d pl h hb
  have he := C52_UEIPAddress flags v4 v6 d pl h
  unfold Codec.Encodes at he
  rw [h1] at he
  have e := Res.ok.inj he
  have a1 := length_ite_le ((bit flags 1 && !bit flags 4) = true) (wire4 v4) 4 fun hc => by
    rw [Bool.and_eq_true, Bool.not_eq_true'] at hc
    exact wire4_le (h.1 hc.1 hc.2).2
  have a2 := length_ite_le ((bit flags 0 && !bit flags 5) = true) (wire16 v6) 16 fun hc => by
    rw [Bool.and_eq_true, Bool.not_eq_true'] at hc
    exact wire16_le (h.2 hc.1 hc.2).2
  have a3 := length_ite_le (bit flags 3 = true) [d] 1 fun _ => Nat.le_refl _
  have a4 := length_ite_le (bit flags 6 = true) [pl] 1 fun _ => Nat.le_refl _
  refine ⟨v, carries UEIPAddress.codec .ueIPAddress .ueIPAddress h1 ?_ hg
    (fun sp => (C42_UEIPAddress w sp []).trans h2) (by decide +kernel) rfl (fun _ _ => rfl), h3⟩
  rw [e]
  simp only [List.length_append, List.length_cons, List.length_nil]
  omega

example : bit 0x48 3 = true ∧ bit 0x48 6 = true ∧ UEIPAddressArgs 0x48 none none := by
  refine ⟨by decide, by decide, fun h => absurd h (by decide), fun h => absurd h (by decide)⟩

/-- Remote GTP-U peers, when something is announced and the network instance fits. -/
theorem C59_remote_gtpu_peer_partial (flags : UInt8) (v4 v6 : IP) (di : UInt8) (ni : Bytes)
    (h : RemoteGTPUPeerArgs flags v4 v6 ni) (hf : ∃ i, i < 4 ∧ bit flags i = true) (hn : ni.length ≤ 65509)
    (hg : g T.RemoteGTPUPeer = false) :
    Carries g mem (newRemoteGTPUPeer flags v4 v6 di ni) T.RemoteGTPUPeer .RemoteGTPUPeer
      (.remoteGTPUPeer ⟨flags, if bit flags 1 then v4.as4 else none, if bit flags 0 then v6.as16 else none,
        if bit flags 2 then 1 else 0, if bit flags 2 then di &&& 0x0f else 0,
        if bit flags 3 then UInt16.ofNat ni.length else 0, if bit flags 3 then ni else []⟩) := by
  have he := C52_RemoteGTPUPeer flags v4 v6 di ni h hf
  refine carries RemoteGTPUPeer.codec .remoteGTPUPeer .remoteGTPUPeer he ?_ hg
    ((yields_exact (C40_RemoteGTPUPeer_partial flags v4 v6 di ni h hf) he)) (by decide +kernel) rfl (fun _ _ => rfl)
  have a1 := length_ite_le (bit flags 1 = true) (wire4 v4) 4 fun hc => wire4_le (h.1 hc).2
  have a2 := length_ite_le (bit flags 0 = true) (wire16 v6) 16 fun hc => wire16_le (h.2.1 hc).2
  have a3 := length_ite_le (bit flags 2 = true) [0, 1, di &&& 0x0f] 3 fun _ => Nat.le_refl _
  have a4 := length_ite_le (bit flags 3 = true) (be16 (UInt16.ofNat ni.length) ++ ni) (2 + ni.length) fun _ => by
    rw [List.length_append, be16_length]; exact Nat.le_refl _
  simp only [List.length_append] at a4 ⊢
  simp only [List.length_cons, List.length_nil]
  omega

/-- Multicast addresses: one or a range. -/
theorem C59_ip_multicast_address_partial (s4 s6 e4 e6 : IP) (h : IPMulticastAddressArgs s4 s6 e4 e6)
    (hg : g T.IPMulticastAddress = false) :
    Carries g mem (newIPMulticastAddress s4 s6 e4 e6) T.IPMulticastAddress .IPMulticastAddress
      (.ipMulticastAddress ⟨(if s6.isSome then 1 else 0) + (if s4.isSome then 2 else 0) +
        (if e4.isSome || e6.isSome then 4 else 0), s4.as4, s6.as16, e4.as4, e6.as16⟩) := by
  have he := C52_IPMulticastAddress s4 s6 e4 e6 h
  have := wire4_le h.1.1
  have := wire16_le h.1.2.1
  have := wire4_le h.1.2.2.1
  have := wire16_le h.1.2.2.2
  exact carries IPMulticastAddress.codec .ipMulticastAddress .ipMulticastAddress he (by fits) hg
    ((yields_exact (C40_IPMulticastAddress_partial s4 s6 e4 e6 h) he)) (by decide +kernel) rfl (fun _ _ => rfl)

/-- User plane resources without a network instance. -/
theorem C59_user_plane_ip_resource_information_partial (flags tr : UInt8) (v4 v6 : IP) (ni : Bytes) (si : UInt8)
    (h : UserPlaneIPResourceInformationArgs flags v4 v6) (hf : (∃ i, i < 5 ∧ bit flags i = true) ∨ bit flags 6 = true)
    (h5 : bit flags 5 = false) (hsi : si.toNat < 16) (hg : g T.UserPlaneIPResourceInformation = false) :
    Carries g mem (newUserPlaneIPResourceInformation flags tr v4 v6 ni si) T.UserPlaneIPResourceInformation
      .UserPlaneIPResourceInformation
      (.userPlaneIPResourceInformation ⟨flags, if bit flags 2 || bit flags 3 || bit flags 4 then tr else 0,
        if bit flags 0 then v4.as4 else none, if bit flags 1 then v6.as16 else none, [], if bit flags 6 then si else 0⟩) := by
  have he := C52_UserPlaneIPResourceInformation flags tr v4 v6 ni si h hf
  refine carries UserPlaneIPResourceInformation.codec .userPlaneIPResourceInformation .userPlaneIPResourceInformation he ?_
    hg ((yields_exact (C40_UserPlaneIPResourceInformation_partial flags tr v4 v6 ni si h hf h5 hsi) he)) (by decide +kernel) rfl
    (fun _ _ => rfl)
  have a1 := length_ite_le (bit flags 0 = true) (wire4 v4) 4 fun hc => wire4_le (h.1 hc).2
  have a2 := length_ite_le (bit flags 1 = true) (wire16 v6) 16 fun hc => wire16_le (h.2 hc).2
  have a3 := length_ite_le ((bit flags 2 || bit flags 3 || bit flags 4) = true) [tr] 1 fun _ => Nat.le_refl _
  have a4 := length_ite_le (bit flags 6 = true) [si] 1 fun _ => Nat.le_refl _
  simp only [h5, List.length_append, List.length_cons, List.length_nil, Bool.false_eq_true, if_false]
  omega

/-- Outer headers to create, without tags. -/
theorem C59_outer_header_creation_partial (d : UInt16) (teid : UInt32) (v4 v6 : IP) (port : UInt16) (ctag stag : UInt32)
    (h : OHCArgs d v4 v6) (h14 : bit16 d 14 = false) (h15 : bit16 d 15 = false) (h6 : bit16 d 6 = false)
    (h7 : bit16 d 7 = false) (hg : g T.OuterHeaderCreation = false) :
    Carries g mem (newOuterHeaderCreation d teid v4 v6 port ctag stag) T.OuterHeaderCreation .OuterHeaderCreation
      (.outerHeaderCreation ⟨d, if OHCTeid d then teid else 0, if OHCV4 d then v4.as4 else none,
        if OHCV6 d then v6.as16 else none, if OHCPort d then port else 0, 0, 0⟩) := by
  have he := C52_OuterHeaderCreation_partial d teid v4 v6 port ctag stag h fun _ => ⟨h14, h15⟩
  refine carries OuterHeaderCreation.codec .outerHeaderCreation .outerHeaderCreation he ?_ hg
    ((yields_exact (C40_OuterHeaderCreation_partial d teid v4 v6 port ctag stag h h14 h15 h6 h7) he)) (by decide +kernel) rfl
    (fun _ _ => rfl)
  have a1 := length_ite_le (OHCV4 d = true) (wire4 v4) 4 fun hc => wire4_le (h.1 hc).2
  have a2 := length_ite_le (OHCV6 d = true) (wire16 v6) 16 fun hc => wire16_le (h.2 hc).2
  have a3 := length_ite_le (OHCTeid d = true) (be32 teid) 4 fun _ => Nat.le_refl _
  have a4 := length_ite_le (OHCPort d = true) (be16 port) 2 fun _ => Nat.le_refl _
  simp only [h14, h15, List.length_append, be16_length, List.length_nil, Bool.false_eq_true, if_false]
  omega

/-- Tags that are announced never come back: the accessor reads 0 for them. -/
theorem C59_outer_header_creation_violated (d : UInt16) (teid : UInt32) (v4 v6 : IP) (port : UInt16) (ctag stag : UInt32)
    (v : OuterHeaderCreation)
    (h : Carries g mem (newOuterHeaderCreation d teid v4 v6 port ctag stag) T.OuterHeaderCreation .OuterHeaderCreation
      (.outerHeaderCreation v)) : v.ctag = 0 ∧ v.stag = 0 := by
  obtain ⟨i, -, -, ht, -, -, -, h2⟩ := h []
  rw [call_leaf g mem .OuterHeaderCreation i .outerHeaderCreation (by rw [ht]; rfl) (Nat.zero_le _)] at h2
  simp only [Leaf.run] at h2
  cases hp : OuterHeaderCreation.codec.parse ⟨i.payload, mem i⟩ with
  | ok x =>
    rw [hp] at h2
    cases h2
    exact C40_OuterHeaderCreation_violated _ _ hp
  | err e => rw [hp] at h2; cases h2
  | panic => rw [hp] at h2; cases h2

/-- PMF addresses and ports, without MAC addresses. -/
theorem C59_pmf_address_information_partial (v4 v6 : IP) (p1 p2 : UInt16) (h4 : v4.Is4) (h6 : v6.Is16)
    (hg : g T.PMFAddressInformation = false) :
    Carries g mem (newPMFAddressInformation v4 v6 p1 p2 none none) T.PMFAddressInformation .PMFAddressInformation
      (.pmfAddressInformation
        ⟨(if v4.isSome then 1 else 0) + (if v6.isSome then 2 else 0), v4.as4, v6.as16, p1, p2, none, none⟩) := by
  have hn : IP.Len 6 none := fun a ha => by cases ha
  have he := C52_PMFAddressInformation v4 v6 p1 p2 none none h4 h6 hn hn
  have := wire4_le h4
  have := wire16_le h6
  refine carries PMFAddressInformation.codec .pmfAddressInformation .pmfAddressInformation he ?_ hg
    ((yields_exact (C40_PMFAddressInformation_partial v4 v6 p1 p2 h4 h6) he)) (by decide +kernel) rfl (fun _ _ => rfl)
  simp only [Option.getD_none]
  fits

/-! ### Names, filters and identities -/

/-- Header enrichments with a name and a value of up to 255 octets. -/
theorem C59_header_enrichment_partial (typ : UInt8) (name value : Bytes) (hn : name.length < 256) (hv : value.length < 256)
    (hg : g T.HeaderEnrichment = false) :
    Carries g mem (newHeaderEnrichment typ name value) T.HeaderEnrichment .HeaderEnrichment
      (.headerEnrichment ⟨typ, UInt8.ofNat name.length, name, UInt8.ofNat value.length, value⟩) := by
  have he := C52_HeaderEnrichment typ name value hn hv
  exact carries HeaderEnrichment.codec .headerEnrichment .headerEnrichment he (by fits) hg
    ((yields_exact (C40_HeaderEnrichment_partial typ name value hn hv) he)) (by decide +kernel) rfl (fun _ _ => rfl)

/-- MAC addresses, when at least one is given. -/
theorem C59_mac_address_partial (a b c d : Option Bytes) (ha : Is6 a) (hb : Is6 b) (hc : Is6 c) (hd : Is6 d)
    (h : a.isSome = true ∨ b.isSome = true ∨ c.isSome = true ∨ d.isSome = true) (hg : g T.MACAddress = false) :
    Carries g mem (newMACAddress a b c d) T.MACAddress .MACAddress
      (.macAddress ⟨(if a.isSome then 1 else 0) + (if b.isSome then 2 else 0) + (if c.isSome then 4 else 0) +
        (if d.isSome then 8 else 0), a, b, c, d⟩) := by
  have he := C52_MACAddress a b c d ha hb hc hd
  refine carries MACAddress.codec .macAddress .macAddress he ?_ hg
    ((yields_exact (C40_MACAddress_partial a b c d ha hb hc hd h) he)) (by decide +kernel) rfl (fun _ _ => rfl)
  have hl : ∀ x : Option Bytes, Is6 x → (x.getD []).length ≤ 6 := by
    intro x hx
    cases x with
    | none => exact Nat.zero_le _
    | some y => exact Nat.le_of_eq (hx y rfl)
  have := hl a ha
  have := hl b hb
  have := hl c hc
  have := hl d hd
  simp only [List.length_append, List.length_cons, List.length_nil]
  omega

/-- SDF filters, when at least one part is given and the description fits. -/
theorem C59_sdf_filter_partial (fd ttc spi fl : Bytes) (fid : UInt32) (h : SDFFilterArgs fd ttc spi fl)
    (hn : fd ≠ [] ∨ ttc ≠ [] ∨ spi ≠ [] ∨ fl ≠ [] ∨ fid ≠ 0) (hf : fd.length ≤ 65518) (hg : g T.SDFFilter = false) :
    Carries g mem (newSDFFilter fd ttc spi fl fid) T.SDFFilter .SDFFilter
      (.sdfFilter ⟨(if fd = [] then 0 else 1) + (if ttc = [] then 0 else 2) + (if spi = [] then 0 else 4) +
        (if fl = [] then 0 else 8) + (if fid = 0 then 0 else 16), UInt16.ofNat fd.length, fd, ttc, spi, fl, fid⟩) := by
  have he := C52_SDFFilter fd ttc spi fl fid h
  refine carries SDFFilter.codec .sdfFilter .sdfFilter he ?_ hg
    ((yields_exact (C40_SDFFilter_partial fd ttc spi fl fid h hn) he)) (by decide +kernel) rfl (fun _ _ => rfl)
  obtain ⟨-, h2, h3, h4⟩ := h
  have k : ∀ (x : Bytes) (n : Nat), x = [] ∨ x.length = n → x.length ≤ n := by
    rintro x n (rfl | rfl)
    · exact Nat.zero_le _
    · exact Nat.le_refl _
  have := k _ _ h2
  have := k _ _ h3
  have := k _ _ h4
  fits

example : SDFFilterArgs [112, 101] [1, 2] [] [1, 2, 3] :=
  ⟨by decide, Or.inr rfl, Or.inl rfl, Or.inr rfl⟩

/-- User identities: the decimal ones of an odd number of digits, and the NAI. -/
theorem C59_user_id_partial (flags : UInt8) (imsi imei msisdn nai : Bytes) (h : UserID.Args flags imsi imei msisdn nai)
    (h1 : bit flags 0 = true → imsi.length % 2 = 1) (h2 : bit flags 1 = true → imei.length % 2 = 1)
    (h3 : bit flags 2 = true → msisdn.length % 2 = 1) (hg : g T.UserID = false) :
    ∃ v, Carries g mem (newUserID flags imsi imei msisdn nai) T.UserID .UserID (.userID v) ∧ v.flags = flags ∧
      v.imsi = (if bit flags 0 then imsi else []) ∧ v.imei = (if bit flags 1 then imei else []) ∧
      v.msisdn = (if bit flags 2 then msisdn else []) ∧ v.nai = (if bit flags 3 then nai else []) := by
  obtain ⟨w, e, hr⟩ := C40_UserID_partial flags imsi imei msisdn nai h h1 h2 h3
  have he := C52_UserID flags imsi imei msisdn nai h
  obtain ⟨v, hv, hrest⟩ := hr [] []
  rw [List.append_nil] at hv
  refine ⟨v, carries UserID.codec .userID .userID e ?_ hg (fun sp => ?_) (by decide +kernel) rfl (fun _ _ => rfl), hrest⟩
  · rw [e] at he
    rw [Res.ok.inj he]
    obtain ⟨a1, a2, a3, a4⟩ := h
    have k : ∀ (c : Bool) (x : Bytes), (c = true → UserID.IsDecs x ∧ x.length < 511) →
        (if c then UInt8.ofNat ((x.length + 1) / 2) :: tbcd x else []).length ≤ 256 := by
      intro c x hc
      refine length_ite_le (c = true) _ _ fun h => ?_
      have := (hc h).2
      rw [List.length_cons, UserID.tbcd_length]
      omega
    have k1 := k _ _ a1
    have k2 := k _ _ a2
    have k3 := k _ _ a3
    have k4 := length_ite_le (bit flags 3 = true) (UInt8.ofNat nai.length :: nai) 256 fun h => by
      have := a4 h
      rw [List.length_cons]
      omega
    simp only [List.length_append, List.length_cons, List.length_nil]
    omega
  · exact (C42_UserID w sp []).trans hv

/-- Redirect information with one or two addresses: the type and the first address come back (the second does not,
C40). -/
theorem C59_redirect_information_partial (typ : UInt8) (addrs : List Bytes) (a b : Bytes)
    (h : redirectAddrs addrs = some (a, b)) (hl : a.length + b.length ≤ 65530) (hg : g T.RedirectInformation = false) :
    ∃ v, Carries g mem (newRedirectInformation typ addrs) T.RedirectInformation .RedirectInformation
      (.redirectInformation v) ∧ v.typ = typ ∧ v.addr1 = a := by
  have he := C52_RedirectInformation typ addrs a b h (by omega) (by omega)
  refine ⟨⟨typ, UInt16.ofNat a.length, a, UInt16.ofNat a.length,
          ((a ++ be16 (UInt16.ofNat b.length) ++ b ++ []).drop 2).take a.length⟩,
    carries RedirectInformation.codec .redirectInformation .redirectInformation he (by fits) hg (fun sp => ?_)
      (by decide +kernel) rfl (fun _ _ => rfl), rfl, rfl⟩
  obtain ⟨w, h1, h2⟩ := C40_RedirectInformation_partial typ addrs a b h (by omega) (by omega) [] sp
  rw [he] at h1
  cases h1
  rwa [List.append_nil] at h2

/-- With a single address, something is read as the second one. -/
theorem C59_redirect_information_violated (typ : UInt8) (a : Bytes) (h0 : a ≠ []) (hl : a.length ≤ 65530)
    (hg : g T.RedirectInformation = false) :
    ∃ v, Carries g mem (newRedirectInformation typ [a]) T.RedirectInformation .RedirectInformation
      (.redirectInformation v) ∧ v.addr2 ≠ [] := by
  obtain ⟨w, v, h1, h2, h3⟩ := C40_RedirectInformation_violated typ a (by omega) h0
  have he := C52_RedirectInformation typ [a] a [] rfl (by omega) (by decide)
  refine ⟨v, carries RedirectInformation.codec .redirectInformation .redirectInformation h1 ?_ hg
    (fun sp => (C42_RedirectInformation w sp []).trans h2) (by decide +kernel) rfl (fun _ _ => rfl), h3⟩
  rw [he] at h1
  cases h1
  fits

/-- Trace information: the identity and the depth come back, but not events, interfaces and address (C40). -/
theorem C59_trace_information_partial (mcc mnc p id events : Bytes) (depth : UInt8) (ifs a w : Bytes)
    (hp : PLMN mcc mnc p) (ha : TraceAddr a w) (hi : id.length = 3) (he : events.length < 256)
    (hf : ifs.length < 256) (hg : g T.TraceInformation = false) :
    Carries g mem (newTraceInformation mcc mnc id events depth ifs (some a)) T.TraceInformation .TraceInformation
      (.traceInformation ⟨mcc, mnc, id, UInt8.ofNat events.length, [], depth, UInt8.ofNat ifs.length, [],
        UInt8.ofNat w.length, none⟩) := by
  have hE := C52_TraceInformation mcc mnc p id events depth ifs a w hp ha hi he hf
  have hw := (TraceInformation.new_eq mcc mnc id events depth ifs ha).2
  have hpl := hp.length
  exact carries TraceInformation.codec .traceInformation .traceInformation hE (by fits) hg
    ((yields_exact (C40_TraceInformation_partial mcc mnc p id events depth ifs a w hp ha hi he hf) hE)) (by decide +kernel) rfl
    (fun _ _ => rfl)

/-- Lists of MAC addresses never come back as they were given: an address made of other octets is added. -/
theorem C59_mac_addresses_violated (ct st : Bytes) (macs : List Bytes) (h1 : macs.length < 256)
    (h2 : ∀ m ∈ macs, m.length = 6) (h3 : ct.length < 256) (h4 : st.length < 256) (v : MACAddresses)
    (h : Carries g mem (newMACAddressesDetected (some ct) (some st) macs) T.MACAddressesDetected .MACAddressesDetected
        (.macAddresses v) ∨
      Carries g mem (newMACAddressesRemoved (some ct) (some st) macs) T.MACAddressesRemoved .MACAddressesRemoved
        (.macAddresses v)) :
    ∃ x, v.macs = macs ++ [x] := by
  have he := C52_MACAddresses ct st macs h1 h2 h3 h4
  have key : ∀ (a : Acc) (t : IEType), a.table.cases.lookup t = some (.leaf .macAddresses) → a.table.pre = 0 →
      Carries g mem (wrap t (MACAddresses.build (some ct) (some st) macs)) t a (.macAddresses v) →
      ∃ x, v.macs = macs ++ [x] := by
    intro a t hl hp hc
    obtain ⟨i, -, hi, -, -, -, -, hv⟩ := hc []
    rw [he] at hi
    cases hi
    rw [call_leaf g mem a _ .macAddresses hl (by rw [hp]; exact Nat.zero_le _)] at hv
    generalize hw : ([UInt8.ofNat macs.length] ++ macs.flatten ++ [UInt8.ofNat ct.length] ++ ct ++
      [UInt8.ofNat st.length] ++ st) = w at he hv
    have hv : (MACAddresses.codec.parse ⟨w, mem (IE.new t w)⟩ >>= fun v => Res.ok (Val.macAddresses v))
      = .ok (.macAddresses v) := hv
    cases hq : MACAddresses.codec.parse ⟨w, mem (IE.new t w)⟩ with
    | ok x =>
      rw [hq] at hv
      cases hv
      have hq' := hq
      rw [← List.append_nil w] at hq'
      obtain ⟨-, x, hx, -⟩ := C40_MACAddresses_partial ct st macs h1 h2 h3 h4 [] _ v _ he hq'
      exact ⟨x, hx⟩
    | err e => rw [hq] at hv; cases hv
    | panic => rw [hq] at hv; cases hv
  rcases h with h | h
  · exact key _ _ rfl rfl h
  · exact key _ _ rfl rfl h

/-- PFD contents, exactly: if they fit, the element carries them if there is room behind each single text (`Roomy`, see
C40), with the lists without an empty last text; and otherwise it cannot be read. -/
theorem C59_pfd_contents_partial (fd url dn cp dnp : Bytes) (afd aurl adnp : List Bytes)
    (h : PFDContents.Fits fd url dn cp dnp afd aurl adnp)
    (hw : (PFDContents.wire fd url dn cp dnp afd aurl adnp).length ≤ 65535)
    (hr : PFDContents.Roomy (PFDContents.wire fd url dn cp dnp afd aurl adnp).length 2
      [PFDContents.given fd, PFDContents.given url, PFDContents.given dn, PFDContents.given cp, PFDContents.given dnp])
    (hg : g T.PFDContents = false) :
    Carries g mem (newPFDContents fd url dn cp dnp afd aurl adnp) T.PFDContents .PFDContents
      (.pfdContents { PFDContents.new fd url dn cp dnp afd aurl adnp with
        afd := PFDContents.kept afd, aurl := PFDContents.kept aurl, adnp := PFDContents.kept adnp }) := by
  refine carries PFDContents.codec .pfdContents .pfdContents (C52_PFDContents fd url dn cp dnp afd aurl adnp h) hw hg
    (fun sp => ?_) (by decide +kernel) rfl (fun _ _ => rfl)
  have := C40_PFDContents_partial fd url dn cp dnp afd aurl adnp h [] sp
  rw [List.append_nil] at this
  rw [this, if_pos hr]

/-- A flow description and a URL that is not longer by at least four octets: the element is made and sent, but the
receiver cannot read it. -/
theorem C59_pfd_contents_violated (fd url : Bytes) (n1 : fd ≠ []) (n2 : url ≠ []) (h : url.length < fd.length + 4)
    (hl : fd.length + url.length ≤ 65529) (hg : g T.PFDContents = false) :
    ∃ i b, newPFDContents fd url [] [] [] [] [] [] = .ok (some i) ∧ i.marshal g = .ok b ∧ parse g b = .ok i ∧
      Acc.PFDContents.call g mem i = .err .unexpectedEOF := by
  have hp : ∀ sp, _ := fun sp => C40_PFDContents_violated fd url (by omega) (by omega) n1 n2 h sp
  obtain ⟨w, hw, -⟩ := hp []
  have hf : PFDContents.Fits fd url [] [] [] [] [] [] :=
    ⟨⟨by omega, by omega, by decide, by decide, by decide⟩, by decide, by decide, by decide⟩
  have he := C52_PFDContents _ _ _ _ _ _ _ _ hf
  unfold Codec.Encodes at he
  rw [hw] at he
  have hlen : w.length ≤ 65535 := by
    rw [Res.ok.inj he]
    unfold PFDContents.wire
    have e1 : fd.isEmpty = false := by cases fd with | nil => exact absurd rfl n1 | cons _ _ => rfl
    have e2 : url.isEmpty = false := by cases url with | nil => exact absurd rfl n2 | cons _ _ => rfl
    simp [e1, e2, be16_length]
    omega
  obtain ⟨b, h1, h2⟩ := new_wire g T.PFDContents w [] hg (by decide) hlen
  refine ⟨IE.new T.PFDContents w, b, ?_, h1, by rwa [List.append_nil] at h2, ?_⟩
  · unfold newPFDContents
    rw [hw]
    rfl
  · rw [call_leaf g mem .PFDContents _ .pfdContents rfl (Nat.zero_le _)]
    obtain ⟨w', hw', hp'⟩ := hp (mem (IE.new T.PFDContents w))
    rw [hw] at hw'
    cases hw'
    show (PFDContents.codec.parse ⟨w, _⟩ >>= _) = _
    rw [hp']
    rfl

example : ([112, 101] : Bytes) ≠ [] ∧ ([104] : Bytes) ≠ [] ∧ ([104] : Bytes).length < ([112, 101] : Bytes).length + 4 := by
  decide

/-- An even number of digits: the last one is lost on the way. -/
theorem C59_user_id_violated (msisdn : Bytes) (h : UserID.IsDecs msisdn) (hl : msisdn.length < 511) (h0 : msisdn ≠ [])
    (he : msisdn.length % 2 = 0) (hg : g T.UserID = false) :
    ∃ v, Carries g mem (newUserID 4 [] [] msisdn []) T.UserID .UserID (.userID v) ∧
      v.msisdn = msisdn.take (msisdn.length - 1) ∧ v.msisdn ≠ msisdn := by
  obtain ⟨w, v, e, hv, h1, h2⟩ := C40_UserID_violated msisdn h hl h0 he
  have hE := C52_UserID 4 [] [] msisdn []
    ⟨fun h => absurd h (by decide), fun h => absurd h (by decide), fun _ => ⟨h, hl⟩, fun h => absurd h (by decide)⟩
  refine ⟨v, carries UserID.codec .userID .userID e ?_ hg (fun sp => (C42_UserID w sp []).trans hv) (by decide +kernel) rfl
    (fun _ _ => rfl), h1, h2⟩
  rw [e] at hE
  rw [Res.ok.inj hE]
  simp only [show bit 4 0 = false from by decide, show bit 4 1 = false from by decide, show bit 4 2 = true from by decide,
    show bit 4 3 = false from by decide, if_true, Bool.false_eq_true, if_false, List.length_append, List.length_cons,
    List.length_nil, UserID.tbcd_length]
  omega

/-- Any value that an element carries is also read from a grouped element around it: made by the constructor of that
element, of children that fit, when the element is the first child of a type that the accessor looks for there; also
after the way over the wire. -/
theorem C59_inside (c : GroupCtor) (cs : List (Option IE)) (mk : Res (Option IE)) (t : IEType) (a : Acc) (v : Val) (rest : Bytes)
    (hc : Carries g mem mk t a v) (ha : a.onChild = a) (hg : g c.def = true) (hwf : ∀ x ∈ cs.filterMap id, x.WF g)
    (hsz : (encList g (cs.filterMap id)).length ≤ 65535) (hd : a.descends c.def = true)
    (hf : ∃ x, mk = .ok (some x) ∧ (cs.filterMap id).find? (fun y => (a.searched c.def).contains y.typ) = some x) :
    ∃ i b, c.build g cs = .ok (some i) ∧ i.marshal g = .ok b ∧ parse g (b ++ rest) = .ok i ∧ a.call g mem i = .ok v := by
  obtain ⟨x, hx, hf⟩ := hf
  obtain ⟨y, -, hy, -, -, -, -, hv⟩ := hc []
  rw [hx] at hy
  cases hy
  exact C54_value g mem c cs a x v rest hg hwf hsz hd hf (by rw [ha]; exact hv)

end

/-- For instance: an F-TEID in a PDI. -/
example (g : IEType → Bool) (mem : IE → Bytes) (teid : UInt32) (hF : g T.FTEID = false) (hP : g T.PDI = true)
    (hS : g T.SourceInterface = false) :
    ∃ f i b, newFTEID 1 teid (some [192, 0, 2, 1]) none 0 = .ok (some f) ∧
      GroupCtor.NewPDI.build g [some (IE.new T.SourceInterface [0]), some f] = .ok (some i) ∧ i.marshal g = .ok b ∧
      parse g (b ++ []) = .ok i ∧ Acc.FTEID.call g mem i = .ok (.fteid ⟨1, teid, some [192, 0, 2, 1], none, 0⟩) := by
  have ha : FTEIDArgs 1 (some [192, 0, 2, 1]) none := fun _ =>
    ⟨fun _ => ⟨rfl, fun a ha => by cases ha; exact Or.inl rfl⟩, fun h => absurd h (by decide)⟩
  have hc := C59_fteid g mem 1 teid (some [192, 0, 2, 1]) none 0 ha hF
  obtain ⟨f, -, hf, ht, -, -, hw, -⟩ := hc []
  have he := C52_FTEID 1 teid (some [192, 0, 2, 1]) none 0 ha
  have hf' := hf
  unfold newFTEID at hf'
  rw [he] at hf'
  have e : f = IE.new T.FTEID ([1] ++ (be32 teid ++ [192, 0, 2, 1] ++ [])) := by
    cases hf'
    rfl
  have h2 : IE.WF g (IE.new T.SourceInterface [0]) :=
    (C10_new_partial (g := g) T.SourceInterface 0 [0] (by decide) hS).1 (by decide)
  have hsz : (encList g ([some (IE.new T.SourceInterface [0]), some f].filterMap id)).length ≤ 65535 := by
    subst e
    simp [encList, IE.enc, IE.new, IE.setLength, hS, hF, encHdr, isVendor, T.SourceInterface, T.FTEID]
    decide
  have hfind : ([some (IE.new T.SourceInterface [0]), some f].filterMap id).find?
      (fun y => (Acc.FTEID.searched GroupCtor.NewPDI.def).contains y.typ) = some f := by
    subst e
    rfl
  obtain ⟨i, b, i1, i2, i3, i4⟩ := C59_inside g mem .NewPDI [some (IE.new T.SourceInterface [0]), some f] _ T.FTEID .FTEID _ []
    hc rfl hP (by
      intro x hx
      simp only [List.filterMap_cons, List.filterMap_nil, id, List.mem_cons, List.not_mem_nil, or_false] at hx
      rcases hx with rfl | rfl
      · exact h2
      · exact hw) hsz (by decide +kernel) ⟨f, hf, hfind⟩
  exact ⟨f, i, b, hf, i1, i2, i3, i4⟩

end Pfcp
