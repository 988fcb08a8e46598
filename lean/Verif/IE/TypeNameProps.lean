/- Property theorems about the names of element types: C62. -/
import Verif.IE.TypeName
import Verif.IE.Lemmas

namespace Pfcp
namespace TypeName

/-- The identifiers of the constants in /repo/ie/ie.go:22-296 with their values, without the three deprecated ones
(:223-225), in groups of five. -/
def groups : List (List (IEType × Bytes)) := [
  [(T.CreatePDR, bytes! "CreatePDR"),
   (T.PDI, bytes! "PDI"),
   (T.CreateFAR, bytes! "CreateFAR"),
   (T.ForwardingParameters, bytes! "ForwardingParameters"),
   (T.DuplicatingParameters, bytes! "DuplicatingParameters")],
  [(T.CreateURR, bytes! "CreateURR"),
   (T.CreateQER, bytes! "CreateQER"),
   (T.CreatedPDR, bytes! "CreatedPDR"),
   (T.UpdatePDR, bytes! "UpdatePDR"),
   (T.UpdateFAR, bytes! "UpdateFAR")],
  [(T.UpdateForwardingParameters, bytes! "UpdateForwardingParameters"),
   (T.UpdateBARWithinSessionReportResponse, bytes! "UpdateBARWithinSessionReportResponse"),
   (T.UpdateURR, bytes! "UpdateURR"),
   (T.UpdateQER, bytes! "UpdateQER"),
   (T.RemovePDR, bytes! "RemovePDR")],
  [(T.RemoveFAR, bytes! "RemoveFAR"),
   (T.RemoveURR, bytes! "RemoveURR"),
   (T.RemoveQER, bytes! "RemoveQER"),
   (T.Cause, bytes! "Cause"),
   (T.SourceInterface, bytes! "SourceInterface")],
  [(T.FTEID, bytes! "FTEID"),
   (T.NetworkInstance, bytes! "NetworkInstance"),
   (T.SDFFilter, bytes! "SDFFilter"),
   (T.ApplicationID, bytes! "ApplicationID"),
   (T.GateStatus, bytes! "GateStatus")],
  [(T.MBR, bytes! "MBR"),
   (T.GBR, bytes! "GBR"),
   (T.QERCorrelationID, bytes! "QERCorrelationID"),
   (T.Precedence, bytes! "Precedence"),
   (T.TransportLevelMarking, bytes! "TransportLevelMarking")],
  [(T.VolumeThreshold, bytes! "VolumeThreshold"),
   (T.TimeThreshold, bytes! "TimeThreshold"),
   (T.MonitoringTime, bytes! "MonitoringTime"),
   (T.SubsequentVolumeThreshold, bytes! "SubsequentVolumeThreshold"),
   (T.SubsequentTimeThreshold, bytes! "SubsequentTimeThreshold")],
  [(T.InactivityDetectionTime, bytes! "InactivityDetectionTime"),
   (T.ReportingTriggers, bytes! "ReportingTriggers"),
   (T.RedirectInformation, bytes! "RedirectInformation"),
   (T.ReportType, bytes! "ReportType"),
   (T.OffendingIE, bytes! "OffendingIE")],
  [(T.ForwardingPolicy, bytes! "ForwardingPolicy"),
   (T.DestinationInterface, bytes! "DestinationInterface"),
   (T.UPFunctionFeatures, bytes! "UPFunctionFeatures"),
   (T.ApplyAction, bytes! "ApplyAction"),
   (T.DownlinkDataServiceInformation, bytes! "DownlinkDataServiceInformation")],
  [(T.DownlinkDataNotificationDelay, bytes! "DownlinkDataNotificationDelay"),
   (T.DLBufferingDuration, bytes! "DLBufferingDuration"),
   (T.DLBufferingSuggestedPacketCount, bytes! "DLBufferingSuggestedPacketCount"),
   (T.PFCPSMReqFlags, bytes! "PFCPSMReqFlags"),
   (T.PFCPSRRspFlags, bytes! "PFCPSRRspFlags")],
  [(T.LoadControlInformation, bytes! "LoadControlInformation"),
   (T.SequenceNumber, bytes! "SequenceNumber"),
   (T.Metric, bytes! "Metric"),
   (T.OverloadControlInformation, bytes! "OverloadControlInformation"),
   (T.Timer, bytes! "Timer")],
  [(T.PDRID, bytes! "PDRID"),
   (T.FSEID, bytes! "FSEID"),
   (T.ApplicationIDsPFDs, bytes! "ApplicationIDsPFDs"),
   (T.PFDContext, bytes! "PFDContext"),
   (T.NodeID, bytes! "NodeID")],
  [(T.PFDContents, bytes! "PFDContents"),
   (T.MeasurementMethod, bytes! "MeasurementMethod"),
   (T.UsageReportTrigger, bytes! "UsageReportTrigger"),
   (T.MeasurementPeriod, bytes! "MeasurementPeriod"),
   (T.FQCSID, bytes! "FQCSID")],
  [(T.VolumeMeasurement, bytes! "VolumeMeasurement"),
   (T.DurationMeasurement, bytes! "DurationMeasurement"),
   (T.ApplicationDetectionInformation, bytes! "ApplicationDetectionInformation"),
   (T.TimeOfFirstPacket, bytes! "TimeOfFirstPacket"),
   (T.TimeOfLastPacket, bytes! "TimeOfLastPacket")],
  [(T.QuotaHoldingTime, bytes! "QuotaHoldingTime"),
   (T.DroppedDLTrafficThreshold, bytes! "DroppedDLTrafficThreshold"),
   (T.VolumeQuota, bytes! "VolumeQuota"),
   (T.TimeQuota, bytes! "TimeQuota"),
   (T.StartTime, bytes! "StartTime")],
  [(T.EndTime, bytes! "EndTime"),
   (T.QueryURR, bytes! "QueryURR"),
   (T.UsageReportWithinSessionModificationResponse, bytes! "UsageReportWithinSessionModificationResponse"),
   (T.UsageReportWithinSessionDeletionResponse, bytes! "UsageReportWithinSessionDeletionResponse"),
   (T.UsageReportWithinSessionReportRequest, bytes! "UsageReportWithinSessionReportRequest")],
  [(T.URRID, bytes! "URRID"),
   (T.LinkedURRID, bytes! "LinkedURRID"),
   (T.DownlinkDataReport, bytes! "DownlinkDataReport"),
   (T.OuterHeaderCreation, bytes! "OuterHeaderCreation"),
   (T.CreateBAR, bytes! "CreateBAR")],
  [(T.UpdateBARWithinSessionModificationRequest, bytes! "UpdateBARWithinSessionModificationRequest"),
   (T.RemoveBAR, bytes! "RemoveBAR"),
   (T.BARID, bytes! "BARID"),
   (T.CPFunctionFeatures, bytes! "CPFunctionFeatures"),
   (T.UsageInformation, bytes! "UsageInformation")],
  [(T.ApplicationInstanceID, bytes! "ApplicationInstanceID"),
   (T.FlowInformation, bytes! "FlowInformation"),
   (T.UEIPAddress, bytes! "UEIPAddress"),
   (T.PacketRate, bytes! "PacketRate"),
   (T.OuterHeaderRemoval, bytes! "OuterHeaderRemoval")],
  [(T.RecoveryTimeStamp, bytes! "RecoveryTimeStamp"),
   (T.DLFlowLevelMarking, bytes! "DLFlowLevelMarking"),
   (T.HeaderEnrichment, bytes! "HeaderEnrichment"),
   (T.ErrorIndicationReport, bytes! "ErrorIndicationReport"),
   (T.MeasurementInformation, bytes! "MeasurementInformation")],
  [(T.NodeReportType, bytes! "NodeReportType"),
   (T.UserPlanePathFailureReport, bytes! "UserPlanePathFailureReport"),
   (T.RemoteGTPUPeer, bytes! "RemoteGTPUPeer"),
   (T.URSEQN, bytes! "URSEQN"),
   (T.UpdateDuplicatingParameters, bytes! "UpdateDuplicatingParameters")],
  [(T.ActivatePredefinedRules, bytes! "ActivatePredefinedRules"),
   (T.DeactivatePredefinedRules, bytes! "DeactivatePredefinedRules"),
   (T.FARID, bytes! "FARID"),
   (T.QERID, bytes! "QERID"),
   (T.OCIFlags, bytes! "OCIFlags")],
  [(T.PFCPAssociationReleaseRequest, bytes! "PFCPAssociationReleaseRequest"),
   (T.GracefulReleasePeriod, bytes! "GracefulReleasePeriod"),
   (T.PDNType, bytes! "PDNType"),
   (T.FailedRuleID, bytes! "FailedRuleID"),
   (T.TimeQuotaMechanism, bytes! "TimeQuotaMechanism")],
  [(T.UserPlaneIPResourceInformation, bytes! "UserPlaneIPResourceInformation"),
   (T.UserPlaneInactivityTimer, bytes! "UserPlaneInactivityTimer"),
   (T.AggregatedURRs, bytes! "AggregatedURRs"),
   (T.Multiplier, bytes! "Multiplier"),
   (T.AggregatedURRID, bytes! "AggregatedURRID")],
  [(T.SubsequentVolumeQuota, bytes! "SubsequentVolumeQuota"),
   (T.SubsequentTimeQuota, bytes! "SubsequentTimeQuota"),
   (T.RQI, bytes! "RQI"),
   (T.QFI, bytes! "QFI"),
   (T.QueryURRReference, bytes! "QueryURRReference")],
  [(T.AdditionalUsageReportsInformation, bytes! "AdditionalUsageReportsInformation"),
   (T.CreateTrafficEndpoint, bytes! "CreateTrafficEndpoint"),
   (T.CreatedTrafficEndpoint, bytes! "CreatedTrafficEndpoint"),
   (T.UpdateTrafficEndpoint, bytes! "UpdateTrafficEndpoint"),
   (T.RemoveTrafficEndpoint, bytes! "RemoveTrafficEndpoint")],
  [(T.TrafficEndpointID, bytes! "TrafficEndpointID"),
   (T.EthernetPacketFilter, bytes! "EthernetPacketFilter"),
   (T.MACAddress, bytes! "MACAddress"),
   (T.CTAG, bytes! "CTAG"),
   (T.STAG, bytes! "STAG")],
  [(T.Ethertype, bytes! "Ethertype"),
   (T.Proxying, bytes! "Proxying"),
   (T.EthernetFilterID, bytes! "EthernetFilterID"),
   (T.EthernetFilterProperties, bytes! "EthernetFilterProperties"),
   (T.SuggestedBufferingPacketsCount, bytes! "SuggestedBufferingPacketsCount")],
  [(T.UserID, bytes! "UserID"),
   (T.EthernetPDUSessionInformation, bytes! "EthernetPDUSessionInformation"),
   (T.EthernetTrafficInformation, bytes! "EthernetTrafficInformation"),
   (T.MACAddressesDetected, bytes! "MACAddressesDetected"),
   (T.MACAddressesRemoved, bytes! "MACAddressesRemoved")],
  [(T.EthernetInactivityTimer, bytes! "EthernetInactivityTimer"),
   (T.AdditionalMonitoringTime, bytes! "AdditionalMonitoringTime"),
   (T.EventQuota, bytes! "EventQuota"),
   (T.EventThreshold, bytes! "EventThreshold"),
   (T.SubsequentEventQuota, bytes! "SubsequentEventQuota")],
  [(T.SubsequentEventThreshold, bytes! "SubsequentEventThreshold"),
   (T.TraceInformation, bytes! "TraceInformation"),
   (T.FramedRoute, bytes! "FramedRoute"),
   (T.FramedRouting, bytes! "FramedRouting"),
   (T.FramedIPv6Route, bytes! "FramedIPv6Route")],
  [(T.EventTimeStamp, bytes! "EventTimeStamp"),
   (T.AveragingWindow, bytes! "AveragingWindow"),
   (T.PagingPolicyIndicator, bytes! "PagingPolicyIndicator"),
   (T.APNDNN, bytes! "APNDNN"),
   (T.TGPPInterfaceType, bytes! "TGPPInterfaceType")],
  [(T.PFCPSRReqFlags, bytes! "PFCPSRReqFlags"),
   (T.PFCPAUReqFlags, bytes! "PFCPAUReqFlags"),
   (T.ActivationTime, bytes! "ActivationTime"),
   (T.DeactivationTime, bytes! "DeactivationTime"),
   (T.CreateMAR, bytes! "CreateMAR")],
  [(T.TGPPAccessForwardingActionInformation, bytes! "TGPPAccessForwardingActionInformation"),
   (T.NonTGPPAccessForwardingActionInformation, bytes! "NonTGPPAccessForwardingActionInformation"),
   (T.RemoveMAR, bytes! "RemoveMAR"),
   (T.UpdateMAR, bytes! "UpdateMAR"),
   (T.MARID, bytes! "MARID")],
  [(T.SteeringFunctionality, bytes! "SteeringFunctionality"),
   (T.SteeringMode, bytes! "SteeringMode"),
   (T.Weight, bytes! "Weight"),
   (T.Priority, bytes! "Priority"),
   (T.UpdateTGPPAccessForwardingActionInformation, bytes! "UpdateTGPPAccessForwardingActionInformation")],
  [(T.UpdateNonTGPPAccessForwardingActionInformation, bytes! "UpdateNonTGPPAccessForwardingActionInformation"),
   (T.UEIPAddressPoolIdentity, bytes! "UEIPAddressPoolIdentity"),
   (T.AlternativeSMFIPAddress, bytes! "AlternativeSMFIPAddress"),
   (T.PacketReplicationAndDetectionCarryOnInformation, bytes! "PacketReplicationAndDetectionCarryOnInformation"),
   (T.SMFSetID, bytes! "SMFSetID")],
  [(T.QuotaValidityTime, bytes! "QuotaValidityTime"),
   (T.NumberOfReports, bytes! "NumberOfReports"),
   (T.PFCPSessionRetentionInformation, bytes! "PFCPSessionRetentionInformation"),
   (T.PFCPASRspFlags, bytes! "PFCPASRspFlags"),
   (T.CPPFCPEntityIPAddress, bytes! "CPPFCPEntityIPAddress")],
  [(T.PFCPSEReqFlags, bytes! "PFCPSEReqFlags"),
   (T.UserPlanePathRecoveryReport, bytes! "UserPlanePathRecoveryReport"),
   (T.IPMulticastAddressingInfo, bytes! "IPMulticastAddressingInfo"),
   (T.JoinIPMulticastInformationWithinUsageReport, bytes! "JoinIPMulticastInformationWithinUsageReport"),
   (T.LeaveIPMulticastInformationWithinUsageReport, bytes! "LeaveIPMulticastInformationWithinUsageReport")],
  [(T.IPMulticastAddress, bytes! "IPMulticastAddress"),
   (T.SourceIPAddress, bytes! "SourceIPAddress"),
   (T.PacketRateStatus, bytes! "PacketRateStatus"),
   (T.CreateBridgeInfoForTSC, bytes! "CreateBridgeInfoForTSC"),
   (T.CreatedBridgeInfoForTSC, bytes! "CreatedBridgeInfoForTSC")],
  [(T.DSTTPortNumber, bytes! "DSTTPortNumber"),
   (T.NWTTPortNumber, bytes! "NWTTPortNumber"),
   (T.TSNBridgeID, bytes! "TSNBridgeID"),
   (T.TSCManagementInformationWithinSessionModificationRequest, bytes! "TSCManagementInformationWithinSessionModificationRequest"),
   (T.TSCManagementInformationWithinSessionModificationResponse, bytes! "TSCManagementInformationWithinSessionModificationResponse")],
  [(T.TSCManagementInformationWithinSessionReportRequest, bytes! "TSCManagementInformationWithinSessionReportRequest"),
   (T.PortManagementInformationContainer, bytes! "PortManagementInformationContainer"),
   (T.ClockDriftControlInformation, bytes! "ClockDriftControlInformation"),
   (T.RequestedClockDriftInformation, bytes! "RequestedClockDriftInformation"),
   (T.ClockDriftReport, bytes! "ClockDriftReport")],
  [(T.TSNTimeDomainNumber, bytes! "TSNTimeDomainNumber"),
   (T.TimeOffsetThreshold, bytes! "TimeOffsetThreshold"),
   (T.CumulativeRateRatioThreshold, bytes! "CumulativeRateRatioThreshold"),
   (T.TimeOffsetMeasurement, bytes! "TimeOffsetMeasurement"),
   (T.CumulativeRateRatioMeasurement, bytes! "CumulativeRateRatioMeasurement")],
  [(T.RemoveSRR, bytes! "RemoveSRR"),
   (T.CreateSRR, bytes! "CreateSRR"),
   (T.UpdateSRR, bytes! "UpdateSRR"),
   (T.SessionReport, bytes! "SessionReport"),
   (T.SRRID, bytes! "SRRID")],
  [(T.AccessAvailabilityControlInformation, bytes! "AccessAvailabilityControlInformation"),
   (T.RequestedAccessAvailabilityInformation, bytes! "RequestedAccessAvailabilityInformation"),
   (T.AccessAvailabilityReport, bytes! "AccessAvailabilityReport"),
   (T.AccessAvailabilityInformation, bytes! "AccessAvailabilityInformation"),
   (T.ProvideATSSSControlInformation, bytes! "ProvideATSSSControlInformation")],
  [(T.ATSSSControlParameters, bytes! "ATSSSControlParameters"),
   (T.MPTCPControlInformation, bytes! "MPTCPControlInformation"),
   (T.ATSSSLLControlInformation, bytes! "ATSSSLLControlInformation"),
   (T.PMFControlInformation, bytes! "PMFControlInformation"),
   (T.MPTCPParameters, bytes! "MPTCPParameters")],
  [(T.ATSSSLLParameters, bytes! "ATSSSLLParameters"),
   (T.PMFParameters, bytes! "PMFParameters"),
   (T.MPTCPAddressInformation, bytes! "MPTCPAddressInformation"),
   (T.UELinkSpecificIPAddress, bytes! "UELinkSpecificIPAddress"),
   (T.PMFAddressInformation, bytes! "PMFAddressInformation")],
  [(T.ATSSSLLInformation, bytes! "ATSSSLLInformation"),
   (T.DataNetworkAccessIdentifier, bytes! "DataNetworkAccessIdentifier"),
   (T.UEIPAddressPoolInformation, bytes! "UEIPAddressPoolInformation"),
   (T.AveragePacketDelay, bytes! "AveragePacketDelay"),
   (T.MinimumPacketDelay, bytes! "MinimumPacketDelay")],
  [(T.MaximumPacketDelay, bytes! "MaximumPacketDelay"),
   (T.QoSReportTrigger, bytes! "QoSReportTrigger"),
   (T.GTPUPathQoSControlInformation, bytes! "GTPUPathQoSControlInformation"),
   (T.GTPUPathQoSReport, bytes! "GTPUPathQoSReport"),
   (T.QoSInformationInGTPUPathQoSReport, bytes! "QoSInformationInGTPUPathQoSReport")],
  [(T.GTPUPathInterfaceType, bytes! "GTPUPathInterfaceType"),
   (T.QoSMonitoringPerQoSFlowControlInformation, bytes! "QoSMonitoringPerQoSFlowControlInformation"),
   (T.RequestedQoSMonitoring, bytes! "RequestedQoSMonitoring"),
   (T.ReportingFrequency, bytes! "ReportingFrequency"),
   (T.PacketDelayThresholds, bytes! "PacketDelayThresholds")],
  [(T.MinimumWaitTime, bytes! "MinimumWaitTime"),
   (T.QoSMonitoringReport, bytes! "QoSMonitoringReport"),
   (T.QoSMonitoringMeasurement, bytes! "QoSMonitoringMeasurement"),
   (T.MTEDTControlInformation, bytes! "MTEDTControlInformation"),
   (T.DLDataPacketsSize, bytes! "DLDataPacketsSize")],
  [(T.QERControlIndications, bytes! "QERControlIndications"),
   (T.PacketRateStatusReport, bytes! "PacketRateStatusReport"),
   (T.NFInstanceID, bytes! "NFInstanceID"),
   (T.EthernetContextInformation, bytes! "EthernetContextInformation"),
   (T.RedundantTransmissionParameters, bytes! "RedundantTransmissionParameters")],
  [(T.UpdatedPDR, bytes! "UpdatedPDR"),
   (T.SNSSAI, bytes! "SNSSAI"),
   (T.IPVersion, bytes! "IPVersion"),
   (T.PFCPASReqFlags, bytes! "PFCPASReqFlags"),
   (T.DataStatus, bytes! "DataStatus")],
  [(T.ProvideRDSConfigurationInformation, bytes! "ProvideRDSConfigurationInformation"),
   (T.RDSConfigurationInformation, bytes! "RDSConfigurationInformation"),
   (T.QueryPacketRateStatusWithinSessionModificationRequest, bytes! "QueryPacketRateStatusWithinSessionModificationRequest"),
   (T.PacketRateStatusReportWithinSessionModificationResponse, bytes! "PacketRateStatusReportWithinSessionModificationResponse"),
   (T.MPTCPApplicableIndication, bytes! "MPTCPApplicableIndication")],
  [(T.BridgeManagementInformationContainer, bytes! "BridgeManagementInformationContainer"),
   (T.UEIPAddressUsageInformation, bytes! "UEIPAddressUsageInformation"),
   (T.NumberOfUEIPAddresses, bytes! "NumberOfUEIPAddresses"),
   (T.ValidityTimer, bytes! "ValidityTimer"),
   (T.RedundantTransmissionForwardingParameters, bytes! "RedundantTransmissionForwardingParameters")],
  [(T.TransportDelayReporting, bytes! "TransportDelayReporting")]]

def constants : List (IEType × Bytes) := groups.flatten

theorem pieces_eq : pieces = groups.map fun g => (g.map (·.2)).flatten := by decide +kernel

theorem name_eq : name = (constants.map (·.2)).flatten := by
  unfold name constants
  rw [pieces_eq, List.map_flatten]
  generalize groups = l
  induction l with
  | nil => rfl
  | cons g l ih => simp only [List.map_cons, List.flatten_cons, List.flatten_append, ih]

/-- Where each of the texts ends when they are put one after the other. -/
def ends : Nat → List Bytes → List Nat
  | n, [] => [n]
  | n, b :: bs => n :: ends (n + b.length) bs

theorem index_eq : index = ends 0 (constants.map (·.2)) := by decide +kernel

theorem numbers : constants.map (·.1.toNat) = List.range' 1 271 := by decide +kernel

/-- A number computed from a text, different for all of the names. -/
def code (b : Bytes) : Nat := b.foldl (fun a c => (a * 256 + c.toNat) % 4635) 0

theorem codes : constants.map (fun c => code c.2) = [
  1006, 4271, 3048, 1037, 4179, 3185, 1908, 356, 1816, 3858, 2023, 4004, 3995, 2718, 3927, 1334, 1471, 194, 107, 383,
  1279, 742, 2875, 3756, 4059, 1830, 2589, 327, 4576, 3240, 178, 4550, 651, 499, 1946, 3616, 3473, 2381, 454, 2464,
  3887, 1392, 2734, 554, 2945, 1811, 2742, 3409, 196, 2344, 629, 1562, 747, 4373, 858, 2636, 2763, 4309, 449, 1041,
  1994, 702, 2536, 2024, 3982, 335, 2221, 3615, 1940, 2634, 2350, 2071, 854, 4566, 2590, 1353, 2973, 3914, 3796,
  1485, 1230, 1919, 487, 3973, 464, 1429, 3385, 129, 1906, 2169, 1277, 1866, 1182, 411, 3653, 4433, 4394, 3917, 2754,
  1881, 4114, 2701, 226, 3673, 1670, 4184, 2090, 793, 1318, 3892, 2956, 4315, 1484, 4460, 128, 4202, 2364, 4112,
  2143, 3748, 2615, 27, 4256, 794, 59, 3622, 2102, 1947, 4577, 2278, 597, 3785, 2254, 3992, 3423, 774, 2874, 2606,
  1914, 1280, 181, 3352, 4027, 2882, 3702, 394, 1128, 1786, 1935, 3187, 2751, 3138, 3908, 1530, 1248, 3275, 2433,
  4337, 2997, 581, 3561, 576, 3091, 547, 2935, 2666, 775, 1221, 3745, 1955, 3058, 3862, 3631, 4001, 127, 396, 1879,
  3249, 3173, 3656, 4069, 874, 297, 4502, 2274, 2228, 3241, 2452, 3120, 768, 3778, 2463, 3200, 4600, 2000, 1282,
  4161, 3540, 468, 345, 1396, 2226, 3552, 1031, 1123, 3001, 755, 4148, 2277, 1800, 179, 1893, 2703, 1421, 898, 1257,
  911, 2563, 3280, 667, 799, 1818, 3135, 3322, 3832, 4429, 4556, 2061, 3106, 3565, 3358, 3045, 65, 489, 4392, 779,
  1305, 457, 2348, 2089, 3428, 1315, 93, 3775, 3696, 3141, 953, 3620, 2202, 1753, 3595, 41, 2100, 4020, 4587, 3776,
  1755, 4105, 1084, 1937, 3383, 2084, 1804, 3478, 3724, 1494, 426, 2451, 31, 2030, 1237] := by decide +kernel

theorem codes_differ : (constants.map fun c => code c.2).Pairwise (· ≠ ·) := by
  rw [codes]
  decide +kernel

/-- The left parenthesis (40) occurs in none of the names. -/
theorem plain : constants.all (fun c => !c.2.contains 40) = true := by decide +kernel

theorem ends_length : ∀ (n : Nat) (bs : List Bytes), (ends n bs).length = bs.length + 1
  | _, [] => rfl
  | n, b :: bs => by rw [ends, List.length_cons, ends_length, List.length_cons]

theorem ends_get (pre : List Bytes) (b : Bytes) (post : List Bytes) (n : Nat) :
    (ends n (pre ++ b :: post))[pre.length]? = some (n + pre.flatten.length) ∧
    (ends n (pre ++ b :: post))[pre.length + 1]? = some (n + pre.flatten.length + b.length) := by
  induction pre generalizing n with
  | nil =>
    refine ⟨rfl, ?_⟩
    cases post <;> rfl
  | cons a pre ih =>
    have := ih (n + a.length)
    simp only [List.cons_append, ends, List.length_cons, List.flatten_cons, List.length_append, List.getElem?_cons_succ]
    rw [this.1, this.2]
    exact ⟨by congr 1; omega, by congr 1; omega⟩

theorem named (t : IEType) (n : Bytes) (h : (t, n) ∈ constants) : string t = .ok n := by
  obtain ⟨pre, post, e⟩ := List.append_of_mem h
  have hn := numbers
  have hl : constants.length = 271 := by
    have := congrArg List.length hn
    simpa using this
  have ht : t.toNat = pre.length + 1 := by
    have h1 : (constants.map (·.1.toNat))[pre.length]? = some t.toNat := by
      rw [e, List.map_append, List.map_cons]
      simp
    rw [hn, List.getElem?_range' (by rw [e] at hl; simp at hl; omega)] at h1
    simp at h1
    omega
  have hp : pre.length < 271 := by rw [e] at hl; simp at hl; omega
  have hi : index.length = 272 := by rw [index_eq, ends_length, List.length_map, hl]
  have hx : index = ends 0 (pre.map (·.2) ++ n :: post.map (·.2)) := by rw [index_eq, e]; simp
  have hy : name = (pre.map (·.2)).flatten ++ (n ++ (post.map (·.2)).flatten) := by rw [name_eq, e]; simp
  obtain ⟨g1, g2⟩ := ends_get (pre.map (·.2)) n (post.map (·.2)) 0
  rw [← hx] at g1 g2
  simp only [List.length_map, Nat.zero_add] at g1 g2
  unfold string
  rw [if_neg (by omega), ht, Nat.add_sub_cancel]
  unfold at_
  rw [g1, g2]
  show slice name _ _ = _
  rw [slice_ok _ _ _ (by omega) (by rw [hy]; simp), hy, ← List.append_assoc,
    List.take_left' (by simp), List.drop_left' (by simp)]

theorem other (t : IEType) (h : ∀ c ∈ constants, c.1 ≠ t) : string t = .ok (bytes! "IEType(" ++ decimal t.toNat ++ bytes! ")") := by
  have hl : constants.length = 271 := by
    have := congrArg List.length numbers
    simpa using this
  have h1 : t.toNat < 1 ∨ index.length - 1 ≤ t.toNat - 1 := by
    rw [index_eq, ends_length, List.length_map, hl]
    apply Classical.byContradiction
    intro h3
    have h4 : t.toNat ∈ List.range' 1 271 := List.mem_range'_1.2 (by omega)
    rw [← numbers] at h4
    obtain ⟨c, hc, h5⟩ := List.mem_map.1 h4
    exact h c hc (UInt16.toNat.inj h5)
  unfold string
  rw [if_pos h1]

/-! ## Property theorems -/

/-- C62. The name of a type that has a constant is the identifier of the constant. -/
theorem C62_named (t : IEType) (n : Bytes) (h : (t, n) ∈ constants) : string t = .ok n := named t n h
example : (T.FTEID, bytes! "FTEID") ∈ constants := by decide +kernel

/-- C62. Any other type is named by its number. -/
theorem C62_numbered (t : IEType) (h : ∀ c ∈ constants, c.1 ≠ t) :
    string t = .ok (bytes! "IEType(" ++ decimal t.toNat ++ bytes! ")") := other t h
example : (∀ c ∈ constants, c.1 ≠ 0x8001) ∧ decimal 32769 = bytes! "32769" := by decide +kernel

/-- C62. Naming a type never fails. -/
theorem C62_total (t : IEType) : string t ≠ .panic := by
  by_cases h : ∃ n, (t, n) ∈ constants
  · obtain ⟨n, h⟩ := h
    rw [named t n h]
    exact fun h => nomatch h
  · rw [other t fun c hc e => h ⟨c.2, e ▸ hc⟩]
    exact fun h => nomatch h

theorem decimal_inj (n m : Nat) (h : decimal n = decimal m) : n = m := by
  have digit : ∀ (n : Nat) (c : Char), c ∈ Nat.toDigits 10 n → c.toNat < 256 := by
    intro n c hc
    have := Nat.isDigit_of_mem_toDigits (by omega) (by omega) hc
    simp only [Char.isDigit, Bool.and_eq_true, decide_eq_true_eq] at this
    have h2 : c.val.toNat ≤ 57 := this.2
    show c.val.toNat < 256
    omega
  have back : ∀ l : List Char, (∀ c ∈ l, c.toNat < 256) → (l.map fun c => UInt8.ofNat c.toNat).map (fun b => Char.ofNat b.toNat) = l := by
    intro l
    induction l with
    | nil => intro _; rfl
    | cons c l ih =>
      intro hl
      rw [List.map_cons, List.map_cons, ih fun d hd => hl d (List.mem_cons_of_mem _ hd)]
      congr 1
      rw [UInt8.toNat_ofNat', Nat.mod_eq_of_lt (hl c List.mem_cons_self), Char.ofNat_toNat]
  have h1 := congrArg (List.map fun b => Char.ofNat b.toNat) h
  unfold decimal at h1
  rw [back _ (digit n), back _ (digit m)] at h1
  have h2 := congrArg (fun l => Nat.ofDigitChars 10 l 0) h1
  simpa only [Nat.ofDigitChars_ten_toDigits] using h2

/-- C62. Different types have different names. -/
theorem C62_injective (t u : IEType) (h : string t = string u) : t = u := by
  have key : ∀ t : IEType, (∃ n, (t, n) ∈ constants ∧ string t = .ok n) ∨
      string t = .ok (bytes! "IEType(" ++ decimal t.toNat ++ bytes! ")") := by
    intro t
    by_cases h : ∃ n, (t, n) ∈ constants
    · obtain ⟨n, h⟩ := h
      exact .inl ⟨n, h, named t n h⟩
    · exact .inr (other t fun c hc e => h ⟨c.2, e ▸ hc⟩)
  have diff : ∀ (c : IEType × Bytes) (d : Bytes), c ∈ constants → c.2 ≠ bytes! "IEType(" ++ d ++ bytes! ")" := by
    intro c d hc e
    have h1 := List.all_eq_true.1 plain c hc
    rw [e] at h1
    simp at h1
  rcases key t with ⟨n, hn, e1⟩ | e1 <;> rcases key u with ⟨m, hm, e2⟩ | e2 <;> rw [e1, e2] at h <;> have h := Res.ok.inj h
  · have uniq : ∀ l : List (IEType × Bytes), (l.map fun c => code c.2).Pairwise (· ≠ ·) → ∀ a ∈ l, ∀ b ∈ l, a.2 = b.2 → a = b := by
      intro l
      induction l with
      | nil => intro _ a ha; cases ha
      | cons x l ih =>
        intro hl a ha b hb hab
        rw [List.map_cons, List.pairwise_cons] at hl
        rcases List.mem_cons.1 ha with rfl | ha' <;> rcases List.mem_cons.1 hb with rfl | hb'
        · rfl
        · exact absurd (congrArg code hab) (hl.1 _ (List.mem_map_of_mem hb'))
        · exact absurd (congrArg code hab.symm) (hl.1 _ (List.mem_map_of_mem ha'))
        · exact ih hl.2 a ha' b hb' hab
    exact (Prod.mk.inj (uniq constants codes_differ _ hn _ hm h)).1
  · exact absurd h (diff _ _ hn)
  · exact absurd h.symm (diff _ _ hm)
  · rw [List.append_assoc, List.append_assoc] at h
    exact UInt16.toNat.inj (decimal_inj _ _ (List.append_cancel_right (List.append_cancel_left h)))

end TypeName
end Pfcp
