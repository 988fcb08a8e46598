/-
The flag methods of the field structures of /repo/ie: `HasX` reads a bit of `f.Flags`, `SetXFlag` sets one. Transcribed from
the source: 79 pairs of methods on 23 structures. The six `Has` methods of `OuterHeaderCreationFields` have no setters; they are in
`Verif/Fields`.
-/
import Verif.Flag.Props

namespace Pfcp

/-- The structures with such methods. -/
inductive FlagStruct where
  | AlternativeSMFIPAddress
  | CTAG
  | CPPFCPEntityIPAddress
  | FSEID
  | FTEID
  | IPMulticastAddress
  | MACAddress
  | MPTCPAddressInformation
  | NumberOfUEIPAddresses
  | PacketDelayThresholds
  | PacketRateStatus
  | PFDContents
  | PMFAddressInformation
  | QoSMonitoringMeasurement
  | STAG
  | SDFFilter
  | SourceIPAddress
  | SubsequentVolumeQuota
  | SubsequentVolumeThreshold
  | UELinkSpecificIPAddress
  | VolumeMeasurement
  | VolumeQuota
  | VolumeThreshold
  deriving DecidableEq, Repr

/-- The pairs `HasX`, `SetXFlag`, by structure and name (for the Number of UE IP Addresses the names are `HasNumIPv4` and
`SetIPv4Flag`, /repo/ie/number-of-ue-ip-addresses.go:67-84). -/
inductive FieldFlag where
  | AlternativeSMFIPAddress_IPv4 | AlternativeSMFIPAddress_IPv6
  | CTAG_VID | CTAG_DEI | CTAG_PCP
  | CPPFCPEntityIPAddress_IPv4 | CPPFCPEntityIPAddress_IPv6
  | FSEID_IPv4 | FSEID_IPv6
  | FTEID_ChID | FTEID_Ch | FTEID_IPv6 | FTEID_IPv4
  | IPMulticastAddress_Any | IPMulticastAddress_Range | IPMulticastAddress_IPv4 | IPMulticastAddress_IPv6
  | MACAddress_UDES | MACAddress_USOU | MACAddress_DEST | MACAddress_SOUR
  | MPTCPAddressInformation_IPv6 | MPTCPAddressInformation_IPv4
  | NumberOfUEIPAddresses_NumIPv6 | NumberOfUEIPAddresses_NumIPv4
  | PacketDelayThresholds_RP | PacketDelayThresholds_UL | PacketDelayThresholds_DL
  | PacketRateStatus_APR | PacketRateStatus_DL | PacketRateStatus_UL
  | PFDContents_ADNP | PFDContents_AURL | PFDContents_AFD | PFDContents_DNP | PFDContents_CP | PFDContents_DN | PFDContents_URL | PFDContents_FD
  | PMFAddressInformation_MAC | PMFAddressInformation_IPv6 | PMFAddressInformation_IPv4
  | QoSMonitoringMeasurement_PLMF | QoSMonitoringMeasurement_RP | QoSMonitoringMeasurement_UL | QoSMonitoringMeasurement_DL
  | STAG_VID | STAG_DEI | STAG_PCP
  | SDFFilter_BID | SDFFilter_FL | SDFFilter_SPI | SDFFilter_TTC | SDFFilter_FD
  | SourceIPAddress_MPL | SourceIPAddress_IPv4 | SourceIPAddress_IPv6
  | SubsequentVolumeQuota_DLVOL | SubsequentVolumeQuota_ULVOL | SubsequentVolumeQuota_TOVOL
  | SubsequentVolumeThreshold_DLVOL | SubsequentVolumeThreshold_ULVOL | SubsequentVolumeThreshold_TOVOL
  | UELinkSpecificIPAddress_NV6 | UELinkSpecificIPAddress_NV4 | UELinkSpecificIPAddress_IPv6 | UELinkSpecificIPAddress_IPv4
  | VolumeMeasurement_DLNOP | VolumeMeasurement_ULNOP | VolumeMeasurement_TONOP | VolumeMeasurement_DLVOL | VolumeMeasurement_ULVOL | VolumeMeasurement_TOVOL
  | VolumeQuota_DLVOL | VolumeQuota_ULVOL | VolumeQuota_TOVOL
  | VolumeThreshold_DLVOL | VolumeThreshold_ULVOL | VolumeThreshold_TOVOL
  deriving DecidableEq, Repr

/-- The structure a pair of methods belongs to. -/
def FieldFlag.struct : FieldFlag → FlagStruct
  | .AlternativeSMFIPAddress_IPv4 | .AlternativeSMFIPAddress_IPv6 => .AlternativeSMFIPAddress
  | .CTAG_VID | .CTAG_DEI | .CTAG_PCP => .CTAG
  | .CPPFCPEntityIPAddress_IPv4 | .CPPFCPEntityIPAddress_IPv6 => .CPPFCPEntityIPAddress
  | .FSEID_IPv4 | .FSEID_IPv6 => .FSEID
  | .FTEID_ChID | .FTEID_Ch | .FTEID_IPv6 | .FTEID_IPv4 => .FTEID
  | .IPMulticastAddress_Any | .IPMulticastAddress_Range | .IPMulticastAddress_IPv4 | .IPMulticastAddress_IPv6 => .IPMulticastAddress
  | .MACAddress_UDES | .MACAddress_USOU | .MACAddress_DEST | .MACAddress_SOUR => .MACAddress
  | .MPTCPAddressInformation_IPv6 | .MPTCPAddressInformation_IPv4 => .MPTCPAddressInformation
  | .NumberOfUEIPAddresses_NumIPv6 | .NumberOfUEIPAddresses_NumIPv4 => .NumberOfUEIPAddresses
  | .PacketDelayThresholds_RP | .PacketDelayThresholds_UL | .PacketDelayThresholds_DL => .PacketDelayThresholds
  | .PacketRateStatus_APR | .PacketRateStatus_DL | .PacketRateStatus_UL => .PacketRateStatus
  | .PFDContents_ADNP | .PFDContents_AURL | .PFDContents_AFD | .PFDContents_DNP | .PFDContents_CP | .PFDContents_DN | .PFDContents_URL | .PFDContents_FD => .PFDContents
  | .PMFAddressInformation_MAC | .PMFAddressInformation_IPv6 | .PMFAddressInformation_IPv4 => .PMFAddressInformation
  | .QoSMonitoringMeasurement_PLMF | .QoSMonitoringMeasurement_RP | .QoSMonitoringMeasurement_UL | .QoSMonitoringMeasurement_DL => .QoSMonitoringMeasurement
  | .STAG_VID | .STAG_DEI | .STAG_PCP => .STAG
  | .SDFFilter_BID | .SDFFilter_FL | .SDFFilter_SPI | .SDFFilter_TTC | .SDFFilter_FD => .SDFFilter
  | .SourceIPAddress_MPL | .SourceIPAddress_IPv4 | .SourceIPAddress_IPv6 => .SourceIPAddress
  | .SubsequentVolumeQuota_DLVOL | .SubsequentVolumeQuota_ULVOL | .SubsequentVolumeQuota_TOVOL => .SubsequentVolumeQuota
  | .SubsequentVolumeThreshold_DLVOL | .SubsequentVolumeThreshold_ULVOL | .SubsequentVolumeThreshold_TOVOL => .SubsequentVolumeThreshold
  | .UELinkSpecificIPAddress_NV6 | .UELinkSpecificIPAddress_NV4 | .UELinkSpecificIPAddress_IPv6 | .UELinkSpecificIPAddress_IPv4 => .UELinkSpecificIPAddress
  | .VolumeMeasurement_DLNOP | .VolumeMeasurement_ULNOP | .VolumeMeasurement_TONOP | .VolumeMeasurement_DLVOL | .VolumeMeasurement_ULVOL | .VolumeMeasurement_TOVOL => .VolumeMeasurement
  | .VolumeQuota_DLVOL | .VolumeQuota_ULVOL | .VolumeQuota_TOVOL => .VolumeQuota
  | .VolumeThreshold_DLVOL | .VolumeThreshold_ULVOL | .VolumeThreshold_TOVOL => .VolumeThreshold

/-- `HasX` as a function of `f.Flags`:
/repo/ie/alternative-smf-ip-address.go:64-81
/repo/ie/c-tag.go:103-130
/repo/ie/cp-pfcp-entity-ip-address.go:76-93
/repo/ie/f-seid.go:67-84
/repo/ie/f-teid.go:142-179
/repo/ie/ip-multicast-address.go:134-171
/repo/ie/mac-address.go:98-135
/repo/ie/mptcp-address-information.go:97-114
/repo/ie/number-of-ue-ip-addresses.go:67-84
/repo/ie/packet-delay-thresholds.go:69-96
/repo/ie/packet-rate-status.go:108-135
/repo/ie/pfd-contents.go:152-229
/repo/ie/pmf-address-information.go:96-123
/repo/ie/qos-monitoring-measurement.go:69-106
/repo/ie/s-tag.go:103-130
/repo/ie/sdf-filter.go:117-164
/repo/ie/source-ip-address.go:113-140
/repo/ie/subsequent-volume-quota.go:100-127
/repo/ie/subsequent-volume-threshold.go:100-127
/repo/ie/ue-link-specific-ip-address.go:96-133
/repo/ie/volume-measurement.go:95-152
/repo/ie/volume-quota.go:89-116
/repo/ie/volume-threshold.go:89-116
-/
def FieldFlag.has : FieldFlag → UInt8 → Bool
  | .AlternativeSMFIPAddress_IPv4 => has2ndBit
  | .AlternativeSMFIPAddress_IPv6 => has1stBit
  | .CTAG_VID => has3rdBit
  | .CTAG_DEI => has2ndBit
  | .CTAG_PCP => has1stBit
  | .CPPFCPEntityIPAddress_IPv4 => has2ndBit
  | .CPPFCPEntityIPAddress_IPv6 => has1stBit
  | .FSEID_IPv4 => has2ndBit
  | .FSEID_IPv6 => has1stBit
  | .FTEID_ChID => has4thBit
  | .FTEID_Ch => has3rdBit
  | .FTEID_IPv6 => has2ndBit
  | .FTEID_IPv4 => has1stBit
  | .IPMulticastAddress_Any => has4thBit
  | .IPMulticastAddress_Range => has3rdBit
  | .IPMulticastAddress_IPv4 => has2ndBit
  | .IPMulticastAddress_IPv6 => has1stBit
  | .MACAddress_UDES => has4thBit
  | .MACAddress_USOU => has3rdBit
  | .MACAddress_DEST => has2ndBit
  | .MACAddress_SOUR => has1stBit
  | .MPTCPAddressInformation_IPv6 => has2ndBit
  | .MPTCPAddressInformation_IPv4 => has1stBit
  | .NumberOfUEIPAddresses_NumIPv6 => has2ndBit
  | .NumberOfUEIPAddresses_NumIPv4 => has1stBit
  | .PacketDelayThresholds_RP => has3rdBit
  | .PacketDelayThresholds_UL => has2ndBit
  | .PacketDelayThresholds_DL => has1stBit
  | .PacketRateStatus_APR => has3rdBit
  | .PacketRateStatus_DL => has2ndBit
  | .PacketRateStatus_UL => has1stBit
  | .PFDContents_ADNP => has8thBit
  | .PFDContents_AURL => has7thBit
  | .PFDContents_AFD => has6thBit
  | .PFDContents_DNP => has5thBit
  | .PFDContents_CP => has4thBit
  | .PFDContents_DN => has3rdBit
  | .PFDContents_URL => has2ndBit
  | .PFDContents_FD => has1stBit
  | .PMFAddressInformation_MAC => has3rdBit
  | .PMFAddressInformation_IPv6 => has2ndBit
  | .PMFAddressInformation_IPv4 => has1stBit
  | .QoSMonitoringMeasurement_PLMF => has4thBit
  | .QoSMonitoringMeasurement_RP => has3rdBit
  | .QoSMonitoringMeasurement_UL => has2ndBit
  | .QoSMonitoringMeasurement_DL => has1stBit
  | .STAG_VID => has3rdBit
  | .STAG_DEI => has2ndBit
  | .STAG_PCP => has1stBit
  | .SDFFilter_BID => has5thBit
  | .SDFFilter_FL => has4thBit
  | .SDFFilter_SPI => has3rdBit
  | .SDFFilter_TTC => has2ndBit
  | .SDFFilter_FD => has1stBit
  | .SourceIPAddress_MPL => has3rdBit
  | .SourceIPAddress_IPv4 => has2ndBit
  | .SourceIPAddress_IPv6 => has1stBit
  | .SubsequentVolumeQuota_DLVOL => has3rdBit
  | .SubsequentVolumeQuota_ULVOL => has2ndBit
  | .SubsequentVolumeQuota_TOVOL => has1stBit
  | .SubsequentVolumeThreshold_DLVOL => has3rdBit
  | .SubsequentVolumeThreshold_ULVOL => has2ndBit
  | .SubsequentVolumeThreshold_TOVOL => has1stBit
  | .UELinkSpecificIPAddress_NV6 => has4thBit
  | .UELinkSpecificIPAddress_NV4 => has3rdBit
  | .UELinkSpecificIPAddress_IPv6 => has2ndBit
  | .UELinkSpecificIPAddress_IPv4 => has1stBit
  | .VolumeMeasurement_DLNOP => has6thBit
  | .VolumeMeasurement_ULNOP => has5thBit
  | .VolumeMeasurement_TONOP => has4thBit
  | .VolumeMeasurement_DLVOL => has3rdBit
  | .VolumeMeasurement_ULVOL => has2ndBit
  | .VolumeMeasurement_TOVOL => has1stBit
  | .VolumeQuota_DLVOL => has3rdBit
  | .VolumeQuota_ULVOL => has2ndBit
  | .VolumeQuota_TOVOL => has1stBit
  | .VolumeThreshold_DLVOL => has3rdBit
  | .VolumeThreshold_ULVOL => has2ndBit
  | .VolumeThreshold_TOVOL => has1stBit

/-- `SetXFlag` as a function of `f.Flags`, in the same places. -/
def FieldFlag.set : FieldFlag → UInt8 → UInt8
  | .AlternativeSMFIPAddress_IPv4, o => o ||| 0x02
  | .AlternativeSMFIPAddress_IPv6, o => o ||| 0x01
  | .CTAG_VID, o => o ||| 0x04
  | .CTAG_DEI, o => o ||| 0x02
  | .CTAG_PCP, o => o ||| 0x01
  | .CPPFCPEntityIPAddress_IPv4, o => o ||| 0x02
  | .CPPFCPEntityIPAddress_IPv6, o => o ||| 0x01
  | .FSEID_IPv4, o => o ||| 0x02
  | .FSEID_IPv6, o => o ||| 0x01
  | .FTEID_ChID, o => o ||| 0x08
  | .FTEID_Ch, o => o ||| 0x04
  | .FTEID_IPv6, o => o ||| 0x02
  | .FTEID_IPv4, o => o ||| 0x01
  | .IPMulticastAddress_Any, o => o ||| 0x08
  | .IPMulticastAddress_Range, o => o ||| 0x04
  | .IPMulticastAddress_IPv4, o => o ||| 0x02
  | .IPMulticastAddress_IPv6, o => o ||| 0x01
  | .MACAddress_UDES, o => o ||| 0x08
  | .MACAddress_USOU, o => o ||| 0x04
  | .MACAddress_DEST, o => o ||| 0x02
  | .MACAddress_SOUR, o => o ||| 0x01
  | .MPTCPAddressInformation_IPv6, o => o ||| 0x02
  | .MPTCPAddressInformation_IPv4, o => o ||| 0x01
  | .NumberOfUEIPAddresses_NumIPv6, o => o ||| 0x02
  | .NumberOfUEIPAddresses_NumIPv4, o => o ||| 0x01
  | .PacketDelayThresholds_RP, o => o ||| 0x04
  | .PacketDelayThresholds_UL, o => o ||| 0x02
  | .PacketDelayThresholds_DL, o => o ||| 0x01
  | .PacketRateStatus_APR, o => o ||| 0x04
  | .PacketRateStatus_DL, o => o ||| 0x02
  | .PacketRateStatus_UL, o => o ||| 0x01
  | .PFDContents_ADNP, o => o ||| 0x80
  | .PFDContents_AURL, o => o ||| 0x40
  | .PFDContents_AFD, o => o ||| 0x20
  | .PFDContents_DNP, o => o ||| 0x10
  | .PFDContents_CP, o => o ||| 0x08
  | .PFDContents_DN, o => o ||| 0x04
  | .PFDContents_URL, o => o ||| 0x02
  | .PFDContents_FD, o => o ||| 0x01
  | .PMFAddressInformation_MAC, o => o ||| 0x04
  | .PMFAddressInformation_IPv6, o => o ||| 0x02
  | .PMFAddressInformation_IPv4, o => o ||| 0x01
  | .QoSMonitoringMeasurement_PLMF, o => o ||| 0x08
  | .QoSMonitoringMeasurement_RP, o => o ||| 0x04
  | .QoSMonitoringMeasurement_UL, o => o ||| 0x02
  | .QoSMonitoringMeasurement_DL, o => o ||| 0x01
  | .STAG_VID, o => o ||| 0x04
  | .STAG_DEI, o => o ||| 0x02
  | .STAG_PCP, o => o ||| 0x01
  | .SDFFilter_BID, o => o ||| 0x10
  | .SDFFilter_FL, o => o ||| 0x08
  | .SDFFilter_SPI, o => o ||| 0x04
  | .SDFFilter_TTC, o => o ||| 0x02
  | .SDFFilter_FD, o => o ||| 0x01
  | .SourceIPAddress_MPL, o => o ||| 0x04
  | .SourceIPAddress_IPv4, o => o ||| 0x02
  | .SourceIPAddress_IPv6, o => o ||| 0x01
  | .SubsequentVolumeQuota_DLVOL, o => o ||| 0x04
  | .SubsequentVolumeQuota_ULVOL, o => o ||| 0x02
  | .SubsequentVolumeQuota_TOVOL, o => o ||| 0x01
  | .SubsequentVolumeThreshold_DLVOL, o => o ||| 0x04
  | .SubsequentVolumeThreshold_ULVOL, o => o ||| 0x02
  | .SubsequentVolumeThreshold_TOVOL, o => o ||| 0x01
  | .UELinkSpecificIPAddress_NV6, o => o ||| 0x08
  | .UELinkSpecificIPAddress_NV4, o => o ||| 0x04
  | .UELinkSpecificIPAddress_IPv6, o => o ||| 0x02
  | .UELinkSpecificIPAddress_IPv4, o => o ||| 0x01
  | .VolumeMeasurement_DLNOP, o => o ||| 0x20
  | .VolumeMeasurement_ULNOP, o => o ||| 0x10
  | .VolumeMeasurement_TONOP, o => o ||| 0x08
  | .VolumeMeasurement_DLVOL, o => o ||| 0x04
  | .VolumeMeasurement_ULVOL, o => o ||| 0x02
  | .VolumeMeasurement_TOVOL, o => o ||| 0x01
  | .VolumeQuota_DLVOL, o => o ||| 0x04
  | .VolumeQuota_ULVOL, o => o ||| 0x02
  | .VolumeQuota_TOVOL, o => o ||| 0x01
  | .VolumeThreshold_DLVOL, o => o ||| 0x04
  | .VolumeThreshold_ULVOL, o => o ||| 0x02
  | .VolumeThreshold_TOVOL, o => o ||| 0x01

/-- Specification (3GPP TS 29.244 clause 8.2): the flags of octet 5 of the element, from bit 1 upwards. -/
def FlagStruct.bits : FlagStruct → List FieldFlag
  | .AlternativeSMFIPAddress => [.AlternativeSMFIPAddress_IPv6, .AlternativeSMFIPAddress_IPv4]
  | .CTAG => [.CTAG_PCP, .CTAG_DEI, .CTAG_VID]
  | .CPPFCPEntityIPAddress => [.CPPFCPEntityIPAddress_IPv6, .CPPFCPEntityIPAddress_IPv4]
  | .FSEID => [.FSEID_IPv6, .FSEID_IPv4]
  | .FTEID => [.FTEID_IPv4, .FTEID_IPv6, .FTEID_Ch, .FTEID_ChID]
  | .IPMulticastAddress => [.IPMulticastAddress_IPv6, .IPMulticastAddress_IPv4, .IPMulticastAddress_Range, .IPMulticastAddress_Any]
  | .MACAddress => [.MACAddress_SOUR, .MACAddress_DEST, .MACAddress_USOU, .MACAddress_UDES]
  | .MPTCPAddressInformation => [.MPTCPAddressInformation_IPv4, .MPTCPAddressInformation_IPv6]
  | .NumberOfUEIPAddresses => [.NumberOfUEIPAddresses_NumIPv4, .NumberOfUEIPAddresses_NumIPv6]
  | .PacketDelayThresholds => [.PacketDelayThresholds_DL, .PacketDelayThresholds_UL, .PacketDelayThresholds_RP]
  | .PacketRateStatus => [.PacketRateStatus_UL, .PacketRateStatus_DL, .PacketRateStatus_APR]
  | .PFDContents => [.PFDContents_FD, .PFDContents_URL, .PFDContents_DN, .PFDContents_CP, .PFDContents_DNP, .PFDContents_AFD, .PFDContents_AURL, .PFDContents_ADNP]
  | .PMFAddressInformation => [.PMFAddressInformation_IPv4, .PMFAddressInformation_IPv6, .PMFAddressInformation_MAC]
  | .QoSMonitoringMeasurement => [.QoSMonitoringMeasurement_DL, .QoSMonitoringMeasurement_UL, .QoSMonitoringMeasurement_RP, .QoSMonitoringMeasurement_PLMF]
  | .STAG => [.STAG_PCP, .STAG_DEI, .STAG_VID]
  | .SDFFilter => [.SDFFilter_FD, .SDFFilter_TTC, .SDFFilter_SPI, .SDFFilter_FL, .SDFFilter_BID]
  | .SourceIPAddress => [.SourceIPAddress_IPv6, .SourceIPAddress_IPv4, .SourceIPAddress_MPL]
  | .SubsequentVolumeQuota => [.SubsequentVolumeQuota_TOVOL, .SubsequentVolumeQuota_ULVOL, .SubsequentVolumeQuota_DLVOL]
  | .SubsequentVolumeThreshold => [.SubsequentVolumeThreshold_TOVOL, .SubsequentVolumeThreshold_ULVOL, .SubsequentVolumeThreshold_DLVOL]
  | .UELinkSpecificIPAddress => [.UELinkSpecificIPAddress_IPv4, .UELinkSpecificIPAddress_IPv6, .UELinkSpecificIPAddress_NV4, .UELinkSpecificIPAddress_NV6]
  | .VolumeMeasurement => [.VolumeMeasurement_TOVOL, .VolumeMeasurement_ULVOL, .VolumeMeasurement_DLVOL, .VolumeMeasurement_TONOP, .VolumeMeasurement_ULNOP, .VolumeMeasurement_DLNOP]
  | .VolumeQuota => [.VolumeQuota_TOVOL, .VolumeQuota_ULVOL, .VolumeQuota_DLVOL]
  | .VolumeThreshold => [.VolumeThreshold_TOVOL, .VolumeThreshold_ULVOL, .VolumeThreshold_DLVOL]

/-! ### C64 flags of the field structures -/

/-- The bit of a flag according to the specification. -/
def FieldFlag.bit (f : FieldFlag) : Nat := f.struct.bits.idxOf f

theorem FieldFlag.bit_lt (f : FieldFlag) : f.bit < 8 := by cases f <;> decide

theorem FieldFlag.mem_bits (f : FieldFlag) : f ∈ f.struct.bits := by cases f <;> decide

theorem FlagStruct.bits_struct (s : FlagStruct) : s.bits.all (fun f => f.struct == s) = true ∧ s.bits.Nodup := by
  cases s <;> decide

theorem FieldFlag.has_eq (f : FieldFlag) : f.has = hasBit f.bit := by cases f <;> rfl

theorem FieldFlag.set_eq (f : FieldFlag) (o : UInt8) : f.set o = o ||| UInt8.ofNat (2 ^ f.bit) := by
  cases f <;> rfl

/-- C64 (a). `HasX` reads the bit the specification assigns to the flag. -/
theorem C64_layout (s : FlagStruct) (n : Nat) (f : FieldFlag) (h : s.bits[n]? = some f) (o : UInt8) :
    f.has o = o.toNat.testBit n := by
  have hm : f ∈ s.bits := List.mem_of_getElem? h
  have hs : f.struct = s := by
    have := (FlagStruct.bits_struct s).1
    rw [List.all_eq_true] at this
    simpa using this f hm
  have hb : f.bit = n := by
    unfold FieldFlag.bit
    rw [hs]
    obtain ⟨hn, he⟩ := List.getElem?_eq_some_iff.1 h
    rw [← he]
    exact (FlagStruct.bits_struct s).2.idxOf_getElem n hn
  rw [FieldFlag.has_eq, hb, hasBit_eq n (hb ▸ f.bit_lt)]

/-- C64 (b). Every flag has exactly one bit in its structure. -/
theorem C64_once (f : FieldFlag) : ∃ n, n < 8 ∧ ∀ m, f.struct.bits[m]? = some f ↔ m = n := by
  have hb := f.mem_bits
  have hn := (FlagStruct.bits_struct f.struct).2
  refine ⟨f.bit, f.bit_lt, fun m => ⟨fun h => ?_, fun h => ?_⟩⟩
  · obtain ⟨hm, he⟩ := List.getElem?_eq_some_iff.1 h
    have hi := hn.idxOf_getElem m hm
    rw [he] at hi
    exact hi.symm
  · rw [h]
    exact List.getElem?_eq_some_iff.2 ⟨List.idxOf_lt_length_of_mem hb, List.getElem_idxOf _⟩

/-- C64 (c). `SetXFlag` makes `HasX` true and changes the answer of no other method of the structure. -/
theorem C64_set (f f' : FieldFlag) (h : f'.struct = f.struct) (o : UInt8) :
    f'.has (f.set o) = (f' == f || f'.has o) := by
  have hinj : f'.bit = f.bit → f' = f := by
    intro hb
    have h1 : f'.struct.bits[f'.bit]? = some f' :=
      List.getElem?_eq_some_iff.2 ⟨List.idxOf_lt_length_of_mem f'.mem_bits, List.getElem_idxOf _⟩
    have h2 : f.struct.bits[f.bit]? = some f :=
      List.getElem?_eq_some_iff.2 ⟨List.idxOf_lt_length_of_mem f.mem_bits, List.getElem_idxOf _⟩
    rw [h, hb, h2] at h1
    exact (Option.some.inj h1).symm
  rw [FieldFlag.has_eq, FieldFlag.set_eq, hasBit_eq _ f'.bit_lt, hasBit_eq _ f'.bit_lt]
  have h8 := f.bit_lt
  have hp : (UInt8.ofNat (2 ^ f.bit)).toNat = 2 ^ f.bit := by
    rw [UInt8.toNat_ofNat']
    apply Nat.mod_eq_of_lt
    exact Nat.pow_lt_pow_right (by decide) h8
  rw [UInt8.toNat_or, Nat.testBit_or, hp, Nat.testBit_two_pow]
  by_cases hf : f' = f
  · subst hf; simp
  · have hne : f.bit ≠ f'.bit := fun hb => hf (hinj hb.symm)
    have hff : (f' == f) = false := by simpa using hf
    simp [hne, hff]

/-- C64 (d). `SetXFlag` changes no other bit, also none the structure has no method for. -/
theorem C64_set_bits (f : FieldFlag) (o : UInt8) (m : Nat) (hm : f.struct.bits[m]? ≠ some f) :
    (f.set o).toNat.testBit m = o.toNat.testBit m := by
  have hne : f.bit ≠ m := by
    intro hb
    apply hm
    rw [← hb]
    exact List.getElem?_eq_some_iff.2 ⟨List.idxOf_lt_length_of_mem f.mem_bits, List.getElem_idxOf _⟩
  have hp : (UInt8.ofNat (2 ^ f.bit)).toNat = 2 ^ f.bit := by
    rw [UInt8.toNat_ofNat']
    apply Nat.mod_eq_of_lt
    exact Nat.pow_lt_pow_right (by decide) f.bit_lt
  rw [FieldFlag.set_eq, UInt8.toNat_or, Nat.testBit_or, hp, Nat.testBit_two_pow]
  simp [hne]

/-- C64 (e). After any sequence of calls of setters of a structure, in any order and with repetitions, `HasX` is true exactly
when `SetXFlag` was among the calls or the flag was set before. -/
theorem C64_history (s : FlagStruct) (fs : List FieldFlag) (hfs : ∀ f ∈ fs, f.struct = s) (f' : FieldFlag) (h : f'.struct = s)
    (o : UInt8) : f'.has (fs.foldl (fun o f => f.set o) o) = (fs.contains f' || f'.has o) := by
  induction fs generalizing o with
  | nil => simp
  | cons f fs ih =>
    rw [List.foldl_cons, ih (fun x hx => hfs x (by simp [hx])), C64_set f f' (by rw [h, hfs f (by simp)]), List.contains_cons]
    cases fs.contains f' <;> cases f' == f <;> simp

example : FlagStruct.bits .FTEID = [.FTEID_IPv4, .FTEID_IPv6, .FTEID_Ch, .FTEID_ChID] := rfl
example : FieldFlag.FTEID_Ch.has (FieldFlag.FTEID_Ch.set 1) = true ∧ FieldFlag.FTEID_IPv4.has (FieldFlag.FTEID_Ch.set 0) = false := by decide

end Pfcp
