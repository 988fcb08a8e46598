/-
Names of element types: `IEType.String`, /repo/ie/ietype_string.go. Generated from the Go source.
-/
import Verif.IE.Types
import Verif.Go

namespace Pfcp
namespace TypeName

/-- The bytes of a string literal. -/
macro "bytes!" s:str : term => do
  let bs := s.getString.toUTF8.toList.toArray.map fun b => Lean.Syntax.mkNumLit (toString b)
  `(([$bs,*] : Bytes))

/-- `_IEType_name`, /repo/ie/ietype_string.go:287, cut into pieces. -/
def pieces : List Bytes := [
  bytes! "CreatePDRPDICreateFARForwardingParametersDuplicatingParameters",
  bytes! "CreateURRCreateQERCreatedPDRUpdatePDRUpdateFAR",
  bytes! "UpdateForwardingParametersUpdateBARWithinSessionReportResponseUpdateURRUpdateQERRemovePDR",
  bytes! "RemoveFARRemoveURRRemoveQERCauseSourceInterface",
  bytes! "FTEIDNetworkInstanceSDFFilterApplicationIDGateStatus",
  bytes! "MBRGBRQERCorrelationIDPrecedenceTransportLevelMarking",
  bytes! "VolumeThresholdTimeThresholdMonitoringTimeSubsequentVolumeThresholdSubsequentTimeThreshold",
  bytes! "InactivityDetectionTimeReportingTriggersRedirectInformationReportTypeOffendingIE",
  bytes! "ForwardingPolicyDestinationInterfaceUPFunctionFeaturesApplyActionDownlinkDataServiceInformation",
  bytes! "DownlinkDataNotificationDelayDLBufferingDurationDLBufferingSuggestedPacketCountPFCPSMReqFlagsPFCPSRRspFlags",
  bytes! "LoadControlInformationSequenceNumberMetricOverloadControlInformationTimer",
  bytes! "PDRIDFSEIDApplicationIDsPFDsPFDContextNodeID",
  bytes! "PFDContentsMeasurementMethodUsageReportTriggerMeasurementPeriodFQCSID",
  bytes! "VolumeMeasurementDurationMeasurementApplicationDetectionInformationTimeOfFirstPacketTimeOfLastPacket",
  bytes! "QuotaHoldingTimeDroppedDLTrafficThresholdVolumeQuotaTimeQuotaStartTime",
  bytes! "EndTimeQueryURRUsageReportWithinSessionModificationResponseUsageReportWithinSessionDeletionResponseUsageReportWithinSessionReportRequest",
  bytes! "URRIDLinkedURRIDDownlinkDataReportOuterHeaderCreationCreateBAR",
  bytes! "UpdateBARWithinSessionModificationRequestRemoveBARBARIDCPFunctionFeaturesUsageInformation",
  bytes! "ApplicationInstanceIDFlowInformationUEIPAddressPacketRateOuterHeaderRemoval",
  bytes! "RecoveryTimeStampDLFlowLevelMarkingHeaderEnrichmentErrorIndicationReportMeasurementInformation",
  bytes! "NodeReportTypeUserPlanePathFailureReportRemoteGTPUPeerURSEQNUpdateDuplicatingParameters",
  bytes! "ActivatePredefinedRulesDeactivatePredefinedRulesFARIDQERIDOCIFlags",
  bytes! "PFCPAssociationReleaseRequestGracefulReleasePeriodPDNTypeFailedRuleIDTimeQuotaMechanism",
  bytes! "UserPlaneIPResourceInformationUserPlaneInactivityTimerAggregatedURRsMultiplierAggregatedURRID",
  bytes! "SubsequentVolumeQuotaSubsequentTimeQuotaRQIQFIQueryURRReference",
  bytes! "AdditionalUsageReportsInformationCreateTrafficEndpointCreatedTrafficEndpointUpdateTrafficEndpointRemoveTrafficEndpoint",
  bytes! "TrafficEndpointIDEthernetPacketFilterMACAddressCTAGSTAG",
  bytes! "EthertypeProxyingEthernetFilterIDEthernetFilterPropertiesSuggestedBufferingPacketsCount",
  bytes! "UserIDEthernetPDUSessionInformationEthernetTrafficInformationMACAddressesDetectedMACAddressesRemoved",
  bytes! "EthernetInactivityTimerAdditionalMonitoringTimeEventQuotaEventThresholdSubsequentEventQuota",
  bytes! "SubsequentEventThresholdTraceInformationFramedRouteFramedRoutingFramedIPv6Route",
  bytes! "EventTimeStampAveragingWindowPagingPolicyIndicatorAPNDNNTGPPInterfaceType",
  bytes! "PFCPSRReqFlagsPFCPAUReqFlagsActivationTimeDeactivationTimeCreateMAR",
  bytes! "TGPPAccessForwardingActionInformationNonTGPPAccessForwardingActionInformationRemoveMARUpdateMARMARID",
  bytes! "SteeringFunctionalitySteeringModeWeightPriorityUpdateTGPPAccessForwardingActionInformation",
  bytes! "UpdateNonTGPPAccessForwardingActionInformationUEIPAddressPoolIdentityAlternativeSMFIPAddressPacketReplicationAndDetectionCarryOnInformationSMFSetID",
  bytes! "QuotaValidityTimeNumberOfReportsPFCPSessionRetentionInformationPFCPASRspFlagsCPPFCPEntityIPAddress",
  bytes! "PFCPSEReqFlagsUserPlanePathRecoveryReportIPMulticastAddressingInfoJoinIPMulticastInformationWithinUsageReportLeaveIPMulticastInformationWithinUsageReport",
  bytes! "IPMulticastAddressSourceIPAddressPacketRateStatusCreateBridgeInfoForTSCCreatedBridgeInfoForTSC",
  bytes! "DSTTPortNumberNWTTPortNumberTSNBridgeIDTSCManagementInformationWithinSessionModificationRequestTSCManagementInformationWithinSessionModificationResponse",
  bytes! "TSCManagementInformationWithinSessionReportRequestPortManagementInformationContainerClockDriftControlInformationRequestedClockDriftInformationClockDriftReport",
  bytes! "TSNTimeDomainNumberTimeOffsetThresholdCumulativeRateRatioThresholdTimeOffsetMeasurementCumulativeRateRatioMeasurement",
  bytes! "RemoveSRRCreateSRRUpdateSRRSessionReportSRRID",
  bytes! "AccessAvailabilityControlInformationRequestedAccessAvailabilityInformationAccessAvailabilityReportAccessAvailabilityInformationProvideATSSSControlInformation",
  bytes! "ATSSSControlParametersMPTCPControlInformationATSSSLLControlInformationPMFControlInformationMPTCPParameters",
  bytes! "ATSSSLLParametersPMFParametersMPTCPAddressInformationUELinkSpecificIPAddressPMFAddressInformation",
  bytes! "ATSSSLLInformationDataNetworkAccessIdentifierUEIPAddressPoolInformationAveragePacketDelayMinimumPacketDelay",
  bytes! "MaximumPacketDelayQoSReportTriggerGTPUPathQoSControlInformationGTPUPathQoSReportQoSInformationInGTPUPathQoSReport",
  bytes! "GTPUPathInterfaceTypeQoSMonitoringPerQoSFlowControlInformationRequestedQoSMonitoringReportingFrequencyPacketDelayThresholds",
  bytes! "MinimumWaitTimeQoSMonitoringReportQoSMonitoringMeasurementMTEDTControlInformationDLDataPacketsSize",
  bytes! "QERControlIndicationsPacketRateStatusReportNFInstanceIDEthernetContextInformationRedundantTransmissionParameters",
  bytes! "UpdatedPDRSNSSAIIPVersionPFCPASReqFlagsDataStatus",
  bytes! "ProvideRDSConfigurationInformationRDSConfigurationInformationQueryPacketRateStatusWithinSessionModificationRequestPacketRateStatusReportWithinSessionModificationResponseMPTCPApplicableIndication",
  bytes! "BridgeManagementInformationContainerUEIPAddressUsageInformationNumberOfUEIPAddressesValidityTimerRedundantTransmissionForwardingParameters",
  bytes! "TransportDelayReporting"]

/-- `_IEType_name`, /repo/ie/ietype_string.go:287. -/
def name : Bytes := pieces.flatten

/-- `_IEType_index`, /repo/ie/ietype_string.go:289. -/
def index : List Nat := [
  0, 9, 12, 21, 41, 62, 71, 80, 90, 99, 108, 134, 170, 179, 188, 197, 206, 215, 224, 229, 244, 249, 264, 273, 286,
  296, 299, 302, 318, 328, 349, 364, 377, 391, 416, 439, 462, 479, 498, 508, 519, 535, 555, 573, 584, 614, 643, 662,
  693, 707, 721, 743, 757, 763, 789, 794, 799, 804, 822, 832, 838, 849, 866, 884, 901, 907, 924, 943, 974, 991, 1007,
  1023, 1048, 1059, 1068, 1077, 1084, 1092, 1136, 1176, 1213, 1218, 1229, 1247, 1266, 1275, 1316, 1325, 1330, 1348,
  1364, 1385, 1400, 1411, 1421, 1439, 1456, 1474, 1490, 1511, 1533, 1547, 1573, 1587, 1593, 1620, 1643, 1668, 1673,
  1678, 1686, 1715, 1736, 1743, 1755, 1773, 1803, 1827, 1841, 1851, 1866, 1887, 1906, 1909, 1912, 1929, 1962, 1983,
  2005, 2026, 2047, 2064, 2084, 2094, 2098, 2102, 2111, 2119, 2135, 2159, 2189, 2195, 2224, 2250, 2270, 2289, 2312,
  2336, 2346, 2360, 2380, 2404, 2420, 2431, 2444, 2459, 2473, 2488, 2509, 2515, 2532, 2546, 2560, 2574, 2590, 2599,
  2636, 2676, 2685, 2694, 2699, 2720, 2732, 2738, 2746, 2789, 2835, 2858, 2881, 2928, 2936, 2953, 2968, 2999, 3013,
  3034, 3048, 3075, 3100, 3143, 3187, 3205, 3220, 3236, 3258, 3281, 3295, 3309, 3320, 3376, 3433, 3483, 3517, 3545,
  3575, 3591, 3610, 3629, 3657, 3678, 3708, 3717, 3726, 3735, 3748, 3753, 3789, 3827, 3851, 3880, 3910, 3932, 3955,
  3980, 4001, 4016, 4033, 4046, 4069, 4092, 4113, 4131, 4158, 4184, 4202, 4220, 4238, 4254, 4283, 4300, 4333, 4354,
  4395, 4417, 4435, 4456, 4471, 4490, 4514, 4537, 4554, 4575, 4597, 4609, 4635, 4666, 4676, 4682, 4691, 4705, 4715,
  4749, 4776, 4829, 4884, 4909, 4945, 4972, 4993, 5006, 5047, 5070]

/-- `a[i]` on an array. -/
def at_ (a : List Nat) (i : Nat) : Res Nat :=
  match a[i]? with
  | some v => .ok v
  | none => .panic

/-- `strconv.FormatInt(n, 10)` for a number that is not negative. -/
def decimal (n : Nat) : Bytes := (Nat.toDigits 10 n).map fun c => UInt8.ofNat c.toNat

/-- `IEType.String`, /repo/ie/ietype_string.go:291-297. `idx` is never negative where it is used. -/
def string (t : IEType) : Res Bytes :=
  if t.toNat < 1 ∨ index.length - 1 ≤ t.toNat - 1 then
    .ok (bytes! "IEType(" ++ decimal t.toNat ++ bytes! ")")
  else do
    let lo ← at_ index (t.toNat - 1)
    let hi ← at_ index (t.toNat - 1 + 1)
    slice name lo hi

end TypeName
end Pfcp
