/-
C52 and C55 for the two constructors with optional values that have no field structure: Downlink Data Service Information and
Dropped DL Traffic Threshold.
-/
import Verif.Flag.Ctor
import Verif.Acc.Panics

namespace Pfcp

/-- C52: the flags octet, the number of packets if its flag is set, the number of octets if its flag is set. -/
theorem C52_dropped_dl_traffic_threshold (p q : Bool) (packets bytes : UInt64) :
    (newDroppedDLTrafficThreshold p q packets bytes).payload =
      UInt8.ofNat ((if p then 1 else 0) + (if q then 2 else 0)) ::
        ((if p then beBytes 8 packets.toNat else []) ++ (if q then beBytes 8 bytes.toNat else [])) := by
  cases p <;> cases q <;> simp [newDroppedDLTrafficThreshold, IE.new, be64] <;> rfl

/-- C52: the flags octet, the paging policy indicator if its flag is set, the QoS flow identifier if its flag is set. -/
theorem C52_downlink_data_service_information (p q : Bool) (ppi qfi : UInt8) :
    (newDownlinkDataServiceInformation p q ppi qfi).payload =
      UInt8.ofNat ((if p then 1 else 0) + (if q then 2 else 0)) :: ((if p then [ppi] else []) ++ (if q then [qfi] else [])) := by
  cases p <;> cases q <;> rfl

/-- C55: with both flags, both values are read back; this is the only combination that works. -/
theorem C55_downlink_data_service_information_partial (g : IEType → Bool) (mem : IE → Bytes) (ppi qfi : UInt8) :
    Acc.PPI.call g mem (newDownlinkDataServiceInformation true true ppi qfi) = .ok (.u8 ppi) ∧
    Acc.QFI.call g mem (newDownlinkDataServiceInformation true true ppi qfi) = .ok (.u8 qfi) := by
  constructor
  · rw [call_home_leaf g mem (t := T.DownlinkDataServiceInformation) rfl (Nat.zero_le _) (l := .byteMin 2 1) rfl]; rfl
  · rw [call_home_leaf g mem (t := T.DownlinkDataServiceInformation) rfl (Nat.zero_le _) (l := .byteMin 2 2) rfl]; rfl

/-- C55: with the paging policy indicator alone, `PPI` works and `QFI` panics; with the QoS flow identifier alone, `PPI` returns
the QoS flow identifier and `QFI` panics (/repo/ie/qfi.go:19-24, downlink-data-service-information.go:71-80). -/
theorem C55_downlink_data_service_information_violated (g : IEType → Bool) (mem : IE → Bytes) (ppi qfi : UInt8) :
    Acc.PPI.call g mem (newDownlinkDataServiceInformation true false ppi qfi) = .ok (.u8 ppi) ∧
    Acc.QFI.call g mem (newDownlinkDataServiceInformation true false ppi qfi) = .panic ∧
    Acc.PPI.call g mem (newDownlinkDataServiceInformation false true ppi qfi) = .ok (.u8 qfi) ∧
    Acc.QFI.call g mem (newDownlinkDataServiceInformation false true ppi qfi) = .panic ∧
    Acc.PPI.call g mem (newDownlinkDataServiceInformation false false ppi qfi) = .err .unexpectedEOF ∧
    Acc.QFI.call g mem (newDownlinkDataServiceInformation false false ppi qfi) = .err .unexpectedEOF := by
  refine ⟨?_, ?_, ?_, ?_, ?_, ?_⟩
  all_goals
    first
    | (rw [call_home_leaf g mem (a := .PPI) (t := T.DownlinkDataServiceInformation) rfl (Nat.zero_le _) (l := .byteMin 2 1) rfl]; rfl)
    | (rw [call_home_leaf g mem (a := .QFI) (t := T.DownlinkDataServiceInformation) rfl (Nat.zero_le _) (l := .byteMin 2 2) rfl]; rfl)

/-- C55: the thresholds cannot be read back; the accessor returns the flags octet whatever they are. -/
theorem C55_dropped_dl_traffic_threshold_violated (g : IEType → Bool) (mem : IE → Bytes) (p q : Bool) (packets bytes : UInt64)
    (hg : g T.DroppedDLTrafficThreshold = false) :
    Acc.DroppedDLTrafficThreshold.call g mem (newDroppedDLTrafficThreshold p q packets bytes) =
      .ok (.u8 (UInt8.ofNat ((if p then 1 else 0) + (if q then 2 else 0)))) := by
  rw [call_home_leaf g mem (t := T.DroppedDLTrafficThreshold) rfl (Nat.zero_le _) (l := .u8) rfl]
  unfold Leaf.run IE.valueAsUint8
  rw [show g (newDroppedDLTrafficThreshold p q packets bytes).typ = false from hg]
  cases p <;> cases q <;> rfl

end Pfcp
